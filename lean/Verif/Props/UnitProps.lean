import Verif.Proofs.AffineSteps
import Verif.Props.HoughLoadProps
import Verif.Props.SearchProps

/-!
Property theorems C138 and C139: what happens when all wavelengths are given with another zero point, or in
another unit.
-/

set_option linter.unusedSectionVars false

namespace Rascal

open Spec

section
variable {K : Type _} [Field K] [LinearOrder K] [IsStrictOrderedRing K]

/-- No call of a history leaves a transform whose histogram is degenerate
(src/rascal/houghtransform.py:183-187). -/
def Spec.SpreadHistory (s : K) (E : CalEnv K) (w : World K) (ops : List (SetOp K)) : Prop :=
  ∀ n pts, (w.steps E (ops.take n)).cal.ht.points = some (.array pts) → SpreadPoints s pts

theorem steps_aff {s t : K} (hs : 0 < s) (E : CalEnv K) (ops : List (SetOp K)) : ∀ w : World K,
    (∀ op ∈ ops, Movable op) → SpreadHistory s E w ops →
    (affWorld s t w).steps { E with emptyAtlas := affAtlas s t E.emptyAtlas } (ops.map (affOp s t)) =
      affWorld s t (w.steps E ops) := by
  induction ops with
  | nil => intro w _ _; rfl
  | cons op ops ih =>
    intro w hm hp
    have h1 := step_aff (t := t) hs E w op (hm op (by simp)) (fun pts h => hp 1 pts h)
    have h2 := ih (w.step E op).1 (fun o ho => hm o (by simp [ho])) (fun n pts h => hp (n + 1) pts h)
    unfold World.steps at h2 ⊢
    rw [List.map_cons, List.foldl_cons, List.foldl_cons, h1]
    exact h2

variable [FloorRing K]

/-- Two fits agree up to the change of scale `v ↦ s * v + t`: neither ends, or both raise the same exception, or
both return; then the new wavelength solution is the old one on the new scale at every pixel, the same peaks are
matched, to the same lines, the errors are scaled and the utilisations are the same
(src/rascal/calibrator.py:1552-1715). -/
def Spec.SameFit (k : Kernels K) (s t : K) (old new : CallRes (FitReport K)) : Prop :=
  (old = .running ∧ new = .running) ∨ (∃ e, old = .done (.error e) ∧ new = .done (.error e)) ∨
  ∃ r r', old = .done (.ok r) ∧ new = .done (.ok r') ∧
    (∀ x, k.polyval r'.coeffs x = s * k.polyval r.coeffs x + t) ∧
    r'.matchedPeaks = r.matchedPeaks ∧ r'.matchedAtlas = r.matchedAtlas.map (fun v => s * v + t) ∧
    r'.rms = s * r.rms ∧ r'.residual = r.residual.map (fun l => l.map (fun v => s * v)) ∧
    r'.peakUtil = r.peakUtil ∧ r'.atlasUtil = r.atlasUtil

theorem sameFit_of_aff {k : Kernels K} {s t : K} (hk : AffineKernels k s t) (o : CallRes (FitReport K))
    (hne : ∀ r, o = .done (.ok r) → r.coeffs ≠ []) : SameFit k s t o (affOutcome s t o) := by
  cases o with
  | running => exact Or.inl ⟨rfl, rfl⟩
  | done r =>
    cases r with
    | error e => exact Or.inr (Or.inl ⟨e, rfl, rfl⟩)
    | ok r =>
      refine Or.inr (Or.inr ⟨r, affReport s t r, rfl, rfl, ?_, rfl, rfl, rfl, rfl, rfl, rfl⟩)
      intro x
      exact hk.polyval r.coeffs x (hne r rfl)

/-- The coefficients of a fit come from the robust fit of the matches. -/
theorem fit_coeffs_ne {F : FitEnv K} (ha : IsArgsort F.argsortK) {w : World K} {a : FitArgs K}
    {rnd : FitRandom K} {r : FitReport K} {s t : K} (hk : AffineKernels (F.kern a.fitType) s t)
    (h : (w.fit F a rnd).2 = .done (.ok r)) : r.coeffs ≠ [] := by
  obtain ⟨lines, L, b, co, data, prev, S⟩ := fit_success F ha w a rnd r h
  have := hk.robust_ne _ _ _ _ S.robust
  rw [S.report]
  exact this

/-- The Gaussian weights do not see the scale: they are off, or the weight of a line near a prediction is the
same on both scales (src/rascal/util.py:426-446, src/rascal/calibrator.py:252-257, 310-312). -/
def Spec.ScaleFreeWeights (F : FitEnv K) (w : World K) (s t : K) : Prop :=
  w.cal.ransac.weighted = false ∨ ∀ v p σ, F.gauss (aff s t v) (aff s t p) (s * σ) = F.gauss v p σ

/-- `fit` on the new scale. -/
theorem fit_aff_same {s t : K} (hs : 0 < s) (F : FitEnv K) (w : World K) (a : FitArgs K) (rnd : FitRandom K)
    (hg : ScaleFreeWeights F w s t) (hk : AffineKernels (F.kern a.fitType) s t) (hc : a.fitCoeff ≠ some [])
    (hdet : t = 0 ∨ (a.brute = false ∧ a.degree ≤ a.fitDeg))
    (hp : ∀ pts, (w.fit F a rnd).1.cal.ht.points = some (.array pts) → SpreadPoints s pts)
    (hd : t = 0 ∨ NoWeight w.cal)
    (h0 : s = 1 ∨ a.fitCoeff ≠ none ∨ (NoWeight w.cal ∧ ModestErrors s w.cal)) :
    (affWorld s t w).fit F (affArgs s t a) rnd =
      (affWorld s t (w.fit F a rnd).1, affOutcome s t (w.fit F a rnd).2) := by
  rcases hg with hg | hg
  · have h := fit_aff (t := t) hs F (fun v p σ => F.gauss ((v - t) / s) ((p - t) / s) (σ / s)) (by
      intro v p σ
      have e : ∀ v : K, (aff s t v - t) / s = v := by
        intro v; unfold aff; field_simp; ring
      rw [e, e, mul_div_cancel_left₀ _ hs.ne']) w a rnd hk hc hdet hp hd h0
    rw [fit_gauss F _ (affWorld s t w) (affArgs s t a) rnd hg] at h
    exact h
  · exact fit_aff hs F F.gauss hg w a rnd hk hc hdet hp hd h0

/-- All wavelengths of the first `set_hough_properties` are given (src/rascal/calibrator.py:984-993). -/
def Spec.FullHough (a : HoughArgs K) : Prop :=
  a.minW.isSome ∧ a.maxW.isSome ∧ a.rangeTol.isSome ∧ a.linTol.isSome

/-- The first `set_ransac_properties` is accepted and, for a change of unit, gives both tolerances
(src/rascal/calibrator.py:1121-1133, 1250-1276). -/
def Spec.FullRansac (s : K) (b : RansacArgs K) : Prop :=
  (b.matchesOk ∧ b.utilOk ∧ b.errorOk) ∧ (s = 1 ∨ (b.tol.isSome ∧ b.minFitError.isSome))

omit [FloorRing K] in
theorem houghApply_full (h h' : HoughSet K) (a : HoughArgs K) (pix : List K) (r : K) (hr : ptp pix = .ok r)
    (ha : FullHough a) (h1 : h.numSlopes = h'.numSlopes) (h2 : h.xbins = h'.xbins) (h3 : h.ybins = h'.ybins) :
    HoughSet.apply (some h) a pix = HoughSet.apply (some h') a pix := by
  obtain ⟨a1, a2, a3, a4⟩ := ha
  obtain ⟨v1, e1⟩ := Option.isSome_iff_exists.1 a1
  obtain ⟨v2, e2⟩ := Option.isSome_iff_exists.1 a2
  obtain ⟨v3, e3⟩ := Option.isSome_iff_exists.1 a3
  obtain ⟨v4, e4⟩ := Option.isSome_iff_exists.1 a4
  unfold HoughSet.apply
  rw [hr, e1, e2, e3, e4]
  simp only [keepOr, Option.map_some, h1, h2, h3, HoughSet.setIntercepts, HoughSet.setSlopes]

/-- A new calibrator follows the change of scale once its settings are given. -/
theorem fresh_aff {s t : K} (hs : 0 < s) (E : CalEnv K) {interp : List K → PyRes Unit} {peaks : List K}
    {arr : Bool} {sp : Option (List K)} {c : Cal K} (hc : Cal.new interp peaks arr sp = .ok c)
    (A : List (Atlas K)) (a : HoughArgs K) (b : RansacArgs K) (ha : FullHough a) (hb : FullRansac s b) :
    World.steps { E with emptyAtlas := affAtlas s t E.emptyAtlas } ⟨A.map (affAtlas s t), c⟩
      ([.setHough a, .setRansac b].map (affOp s t)) =
    affWorld s t (World.steps E ⟨A, c⟩ [.setHough a, .setRansac b]) := by
  unfold Cal.new at hc
  split at hc
  · cases hc
  rename_i p hp
  split at hc
  · cases hc
  rename_i h u hh
  have hr : ∃ r, ptp p.pixelList = .ok r := by
    cases hr : ptp p.pixelList with
    | ok r => exact ⟨r, rfl⟩
    | error e => unfold HoughSet.apply at hh; rw [hr] at hh; cases hh
  obtain ⟨r, hr⟩ := hr
  cases hc
  have e1 := houghApply_full h (affHoughSet s t h) (affHoughArgs s t a) p.pixelList r hr
    (by obtain ⟨a1, a2, a3, a4⟩ := ha; exact ⟨by simpa [affHoughArgs], by simpa [affHoughArgs],
          by simpa [affHoughArgs], by simpa [affHoughArgs]⟩) rfl rfl rfl
  rw [houghApply_aff (t := t) hs] at e1
  have e2 : ((RansacSet.init : RansacSet K).set (affRansacArgs s b)).1 =
      affRansacSet s ((RansacSet.init : RansacSet K).set b).1 := by
    have h3 := congrArg Prod.fst (setRansac_aff hs (RansacSet.init : RansacSet K) b)
    dsimp only at h3
    rw [← h3]
    obtain ⟨⟨b1, b2, b3⟩, hb⟩ := hb
    have c1 : (affRansacArgs s b).matchesOk = b.matchesOk := rfl
    have c2 : (affRansacArgs s b).utilOk = b.utilOk := rfl
    rcases hb with rfl | ⟨b4, b5⟩
    · have : affRansacSet (1 : K) RansacSet.init = RansacSet.init := by simp [affRansacSet]
      rw [this]
    · obtain ⟨v4, e4⟩ := Option.isSome_iff_exists.1 b4
      obtain ⟨v5, e5⟩ := Option.isSome_iff_exists.1 b5
      have c3 : (affRansacArgs s b).errorOk = true := by
        unfold RansacArgs.errorOk at b3 ⊢
        simp only [affRansacArgs, e5, Option.map_some, decide_eq_true_eq] at b3 ⊢
        exact mul_nonneg hs.le b3
      unfold RansacSet.set
      simp only [c1, c2, c3, b1, b2, if_true]
      simp only [affRansacArgs, e4, e5, Option.map_some, keepOr, affRansacSet]
  have e3 : ∀ (B : List (Atlas K)) (c : Cal K) (x : HoughArgs K), c.atlas = none →
      (World.setHough ⟨B, c⟩ x).1 =
        ⟨B, { c with hough := (HoughSet.apply (some c.hough) x c.props.pixelList).1 }⟩ := by
    intro B c x hx
    obtain ⟨peaks, arr, props, hough, ransac, atlas, ct, cp, pairs, ht, hl, hp, known, mp, ma, co, rms, res, pu,
      au⟩ := c
    cases hx
    unfold World.setHough
    dsimp only
    generalize HoughSet.apply (some hough) x props.pixelList = q
    obtain ⟨q, e⟩ := q
    cases e <;> rfl
  simp only [List.map_cons, List.map_nil, affOp, World.steps, List.foldl_cons, List.foldl_nil, World.step]
  rw [e3 _ _ _ rfl, e3 _ _ _ rfl]
  dsimp only [World.setRansac]
  rw [e2, e1]
  rfl

/-- Construction, any history and a fit on the new scale. -/
theorem session_aff {s t : K} (hs : 0 < s) (E : CalEnv K) (F : FitEnv K) (hsort : IsArgsort F.argsortK)
    {interp : List K → PyRes Unit} {peaks : List K} {arr : Bool} {sp : Option (List K)} {c : Cal K}
    (hc : Cal.new interp peaks arr sp = .ok c) (A : List (Atlas K)) (x : HoughArgs K) (b : RansacArgs K)
    (hx : FullHough x) (hb : FullRansac s b) (ops : List (SetOp K)) (hm : ∀ op ∈ ops, Movable op)
    (a : FitArgs K) (rnd : FitRandom K) (hk : AffineKernels (F.kern a.fitType) s t) (ha : a.fitCoeff ≠ some [])
    (hdet : t = 0 ∨ (a.brute = false ∧ a.degree ≤ a.fitDeg)) (w : World K) (hw : w = World.steps E ⟨A, c⟩ ([.setHough x, .setRansac b] ++ ops))
    (hsp : SpreadHistory s E (World.steps E ⟨A, c⟩ [.setHough x, .setRansac b]) ops)
    (hp : ∀ pts, (w.fit F a rnd).1.cal.ht.points = some (.array pts) → SpreadPoints s pts)
    (hg : ScaleFreeWeights F w s t) (hd : t = 0 ∨ NoWeight w.cal)
    (h0 : s = 1 ∨ a.fitCoeff ≠ none ∨ (NoWeight w.cal ∧ ModestErrors s w.cal)) :
    SameFit (F.kern a.fitType) s t (w.fit F a rnd).2
      ((World.steps { E with emptyAtlas := affAtlas s t E.emptyAtlas } ⟨A.map (affAtlas s t), c⟩
        ((.setHough x :: .setRansac b :: ops : List (SetOp K)).map (affOp s t))).fit F (affArgs s t a) rnd).2 := by
  have e1 : World.steps { E with emptyAtlas := affAtlas s t E.emptyAtlas } ⟨A.map (affAtlas s t), c⟩
      ((.setHough x :: .setRansac b :: ops : List (SetOp K)).map (affOp s t)) = affWorld s t w := by
    have h1 := fresh_aff (t := t) hs E hc A x b hx hb
    have h2 := steps_aff (t := t) hs E ops _ hm hsp
    rw [← h1] at h2
    rw [hw]
    exact h2
  rw [e1, fit_aff_same hs F w a rnd hg hk ha hdet hp hd h0]
  exact sameFit_of_aff hk _ (fun r hr => fit_coeffs_ne hsort hk hr)

/-- C138 (state): a history of calls with all wavelengths moved by `t` leaves the moved state: settings, atlases,
pairs, Hough lines and points, known pairs and the last solution are moved, everything else is the same.  Missing:
the packaged line lists, a transform from a file, and a transform without any line in range. -/
theorem C138_history_partial (t : K) (E : CalEnv K) (ops : List (SetOp K)) (w : World K)
    (hm : ∀ op ∈ ops, Movable op)
    (hp : ∀ n, (w.steps E (ops.take n)).cal.ht.points ≠ some (.array [])) :
    (affWorld 1 t w).steps { E with emptyAtlas := affAtlas 1 t E.emptyAtlas } (ops.map (affOp 1 t)) =
      affWorld 1 t (w.steps E ops) :=
  steps_aff one_pos E ops w hm (fun n pts h => ⟨fun hn => hp n (by rw [h, hn]), Or.inl rfl⟩)

/-- C138: with the zero point of all wavelengths moved by `t` (lines, limits, known wavelengths, baseline) a new
calibrator gives the moved solution: the same peaks matched to the same lines, the same errors and utilisations, or
the same exception.  Missing: the packaged line lists, a transform from a file, a transform without any line in
range, a `hough_weight` other than 0 (`C138_refuted`, `C138_empty_refuted`), and samples that do not determine the
polynomial (brute force, a baseline of a higher degree than `fit_deg`; `C99_refuted`). -/
theorem C138_calibration_partial (t : K) (E : CalEnv K) (F : FitEnv K) (hsort : IsArgsort F.argsortK)
    {interp : List K → PyRes Unit} {peaks : List K} {arr : Bool} {sp : Option (List K)} {c : Cal K}
    (hc : Cal.new interp peaks arr sp = .ok c) (A : List (Atlas K)) (x : HoughArgs K) (b : RansacArgs K)
    (hx : FullHough x) (hb : FullRansac 1 b) (ops : List (SetOp K)) (hm : ∀ op ∈ ops, Movable op)
    (a : FitArgs K) (rnd : FitRandom K) (hk : AffineKernels (F.kern a.fitType) 1 t) (ha : a.fitCoeff ≠ some [])
    (hbr : a.brute = false) (hdeg : a.degree ≤ a.fitDeg) (w : World K) (hw : w = World.steps E ⟨A, c⟩ ([.setHough x, .setRansac b] ++ ops))
    (hsp : ∀ n, (World.steps E ⟨A, c⟩ ([.setHough x, .setRansac b] ++ ops.take n)).cal.ht.points ≠
      some (.array []))
    (hp : (w.fit F a rnd).1.cal.ht.points ≠ some (.array []))
    (hg : ScaleFreeWeights F w 1 t) (hd : NoWeight w.cal) :
    SameFit (F.kern a.fitType) 1 t (w.fit F a rnd).2
      ((World.steps { E with emptyAtlas := affAtlas 1 t E.emptyAtlas } ⟨A.map (affAtlas 1 t), c⟩
        ((.setHough x :: .setRansac b :: ops : List (SetOp K)).map (affOp 1 t))).fit F (affArgs 1 t a) rnd).2 :=
  session_aff one_pos E F hsort hc A x b hx hb ops hm a rnd hk ha (Or.inr ⟨hbr, hdeg⟩) w hw
    (fun n pts h => ⟨fun hn => hsp n (by
      unfold World.steps at h ⊢; rw [List.foldl_append]; rw [h, hn]), Or.inl rfl⟩)
    (fun pts h => ⟨fun hn => hp (by rw [h, hn]), Or.inl rfl⟩) hg (Or.inr hd) (Or.inl rfl)

/-- C139 (state): a history of calls with all wavelengths in another unit leaves the state in that unit.
Missing: the packaged line lists, a transform from a file, and a transform whose lines all have one slope or one
intercept. -/
theorem C139_history_partial {s : K} (hs : 0 < s) (E : CalEnv K) (ops : List (SetOp K)) (w : World K)
    (hm : ∀ op ∈ ops, Movable op) (hp : SpreadHistory s E w ops) :
    (affWorld s 0 w).steps { E with emptyAtlas := affAtlas s 0 E.emptyAtlas } (ops.map (affOp s 0)) =
      affWorld s 0 (w.steps E ops) :=
  steps_aff hs E ops w hm hp

/-- C139: with all wavelengths and tolerances in another unit a new calibrator gives the same solution in that
unit: the same peaks matched to the same lines, the same utilisations, scaled errors, or the same exception, for any
`hough_weight` if a baseline is given.  Missing: the packaged line lists, a transform from a file, a transform whose
lines all have one slope or one intercept (`C139_refuted`), and without a baseline a `hough_weight` other
than 0 or errors near the largest start value 1e50. -/
theorem C139_calibration_partial {s : K} (hs : 0 < s) (E : CalEnv K) (F : FitEnv K)
    (hsort : IsArgsort F.argsortK) {interp : List K → PyRes Unit} {peaks : List K} {arr : Bool}
    {sp : Option (List K)} {c : Cal K} (hc : Cal.new interp peaks arr sp = .ok c) (A : List (Atlas K))
    (x : HoughArgs K) (b : RansacArgs K) (hx : FullHough x) (hb : FullRansac s b) (ops : List (SetOp K))
    (hm : ∀ op ∈ ops, Movable op) (a : FitArgs K) (rnd : FitRandom K)
    (hk : AffineKernels (F.kern a.fitType) s 0) (ha : a.fitCoeff ≠ some []) (w : World K)
    (hw : w = World.steps E ⟨A, c⟩ ([.setHough x, .setRansac b] ++ ops))
    (hsp : SpreadHistory s E (World.steps E ⟨A, c⟩ [.setHough x, .setRansac b]) ops)
    (hp : ∀ pts, (w.fit F a rnd).1.cal.ht.points = some (.array pts) → SpreadPoints s pts)
    (hg : ScaleFreeWeights F w s 0)
    (h0 : a.fitCoeff ≠ none ∨ (NoWeight w.cal ∧ ModestErrors s w.cal)) :
    SameFit (F.kern a.fitType) s 0 (w.fit F a rnd).2
      ((World.steps { E with emptyAtlas := affAtlas s 0 E.emptyAtlas } ⟨A.map (affAtlas s 0), c⟩
        ((.setHough x :: .setRansac b :: ops : List (SetOp K)).map (affOp s 0))).fit F (affArgs s 0 a) rnd).2 :=
  session_aff hs E F hsort hc A x b hx hb ops hm a rnd hk ha (Or.inl rfl) w hw hsp hp hg (Or.inl rfl) (Or.inr h0)

end

/-! ### Refutations and concrete cases -/

/-- Straight-line fits of two lists of one length; the root and the density are given. -/
def Toy.scaleKern (root : ℚ → ℚ) (dens : List ℚ → ℚ → ℚ) : Kernels ℚ where
  polyfit := fun xs ys n =>
    if n = 1 ∧ (Toy.finites xs).length = (Toy.finites ys).length then Toy.line (Toy.finites xs) (Toy.finites ys)
    else .error .valueError
  polyval := Toy.kern.polyval
  robust := fun xs ys n => if n = 1 ∧ xs.length = ys.length then Toy.line xs ys else .error .valueError
  sqrt := root
  spline := fun _ bY _ => .ok (fun _ y => dens bY y)

/-- A density that is 1 from the first bin of the second axis on. -/
def Toy.above (bY : List ℚ) (y : ℚ) : ℚ :=
  match bY with
  | [] => 0
  | b :: _ => if y < b then 0 else 1

def Toy.scaleEnv (root : ℚ → ℚ) (dens : List ℚ → ℚ → ℚ) : FitEnv ℚ :=
  { Toy.env with kern := fun _ => Toy.scaleKern root dens }

theorem Toy.finites_aff (s t : ℚ) (l : List (PyFloat ℚ)) :
    Toy.finites (l.map (mapFin (aff s t))) = (Toy.finites l).map (aff s t) := by
  induction l with
  | nil => rfl
  | cons a l ih =>
    unfold Toy.finites at ih ⊢
    cases a with
    | fin v => simp [mapFin, PyFloat.toFinite, ih]
    | posInf => exact ih
    | negInf => exact ih
    | nan => exact ih

theorem Toy.sum_aff (s t : ℚ) (l : List ℚ) : (l.map (aff s t)).sum = s * l.sum + l.length * t := by
  induction l with
  | nil => simp
  | cons a l ih => simp only [List.map_cons, List.sum_cons, ih, List.length_cons, aff]; push_cast; ring

theorem Toy.dot_aff (s t : ℚ) (xs : List ℚ) : ∀ ys : List ℚ, xs.length = ys.length →
    (List.zipWith (fun x y => x * y) xs (ys.map (aff s t))).sum =
      s * (List.zipWith (fun x y => x * y) xs ys).sum + t * xs.sum := by
  induction xs with
  | nil => intro ys _; simp
  | cons x xs ih =>
    intro ys h
    cases ys with
    | nil => simp at h
    | cons y ys =>
      have := ih ys (by simpa using h)
      simp only [List.map_cons, List.zipWith_cons_cons, List.sum_cons, this]
      unfold aff
      ring

theorem Toy.line_aff (s t : ℚ) (xs ys : List ℚ) (h : xs.length = ys.length) :
    Toy.line xs (ys.map (aff s t)) = (Toy.line xs ys).map (affCoeffs s t) := by
  unfold Toy.line
  dsimp only
  rw [Toy.sum_aff, Toy.dot_aff s t xs ys h]
  split
  · rfl
  · rename_i hd
    simp only [Except.map, affCoeffs, aff, List.map_cons, List.map_nil, ← h]
    generalize (xs.map (fun x => x * x)).sum = sxx at hd ⊢
    generalize (List.zipWith (fun x y => x * y) xs ys).sum = sxy
    generalize ys.sum = sy
    generalize xs.sum = sx at hd ⊢
    generalize (xs.length : ℚ) = n at hd ⊢
    congr 2
    · rw [eq_comm, mul_div_assoc', div_add' _ _ _ hd]
      congr 1
      ring
    · congr 1
      rw [mul_div_assoc']
      congr 1
      ring

/-- The toy routines follow a change of scale. -/
theorem Toy.scaleKern_affine (root : ℚ → ℚ) (dens : List ℚ → ℚ → ℚ) (s t : ℚ)
    (hr : ∀ v, root (s ^ 2 * v) = s * root v)
    (hd : ∀ bY y, dens (bY.map (aff s t)) y = dens bY ((y - t) / s)) :
    AffineKernels (Toy.scaleKern root dens) s t where
  polyfit := by
    intro xs ys n _
    show (if n = 1 ∧ (Toy.finites xs).length = (Toy.finites (ys.map (mapFin (aff s t)))).length then _ else _) = _
    rw [Toy.finites_aff, List.length_map]
    unfold Toy.scaleKern
    dsimp only
    split
    · next h => exact Toy.line_aff s t _ _ h.2
    · rfl
  robust := by
    intro xs ys n
    unfold Toy.scaleKern
    dsimp only
    rw [List.length_map]
    split
    · next h => exact Toy.line_aff s t _ _ h.2
    · rfl
  polyfit_ne := by
    rintro xs ys n co h rfl
    unfold Toy.scaleKern Toy.line at h
    dsimp only at h
    split at h
    · split at h <;> cases h
    · cases h
  robust_ne := by
    rintro xs ys n co h rfl
    unfold Toy.scaleKern Toy.line at h
    dsimp only at h
    split at h
    · split at h <;> cases h
    · cases h
  polyval := by
    intro co x h
    cases co with
    | nil => exact absurd rfl h
    | cons c co =>
      have : ∀ l : List ℚ, List.foldr (fun a b => a + x * b) 0 (l.map (fun v => s * v)) =
          s * List.foldr (fun a b => a + x * b) 0 l := by
        intro l
        induction l with
        | nil => simp
        | cons a l ih => simp only [List.map_cons, List.foldr_cons, ih]; ring
      show List.foldr _ _ _ = aff s t (List.foldr _ _ _)
      simp only [affCoeffs, List.foldr_cons, this, aff]
      ring
  sqrt := hr
  spline := by
    intro bx bY h
    show Except.ok _ = Except.ok _
    congr 1
    funext x y
    exact hd bY y

theorem Toy.above_aff {s : ℚ} (hs : 0 < s) (t : ℚ) (bY : List ℚ) (y : ℚ) :
    Toy.above (bY.map (aff s t)) y = Toy.above bY ((y - t) / s) := by
  cases bY with
  | nil => rfl
  | cons b bs =>
    have : y < aff s t b ↔ (y - t) / s < b := by
      rw [div_lt_iff₀ hs]; unfold aff
      constructor <;> intro h <;> linarith
    show (if y < aff s t b then (0 : ℚ) else 1) = if (y - t) / s < b then 0 else 1
    simp only [this]

theorem Toy.shiftKern (t : ℚ) : AffineKernels (Toy.scaleKern Toy.root Toy.above) 1 t :=
  Toy.scaleKern_affine _ _ 1 t (by intro v; simp) (Toy.above_aff one_pos t)

theorem Toy.unitKern {s : ℚ} (hs : 0 < s) : AffineKernels (Toy.scaleKern (fun _ => 0) Toy.above) s 0 :=
  Toy.scaleKern_affine _ _ s 0 (by intro v; simp) (Toy.above_aff hs 0)

theorem sameFit_same {K : Type _} [Field K] [LinearOrder K] {k : Kernels K} {s t : K}
    {old new : CallRes (FitReport K)} (h : SameFit k s t old new) :
    (∃ r r', old = .done (.ok r) ∧ new = .done (.ok r') ∧ r'.matchedPeaks = r.matchedPeaks) ∨
      ((∀ r, old ≠ .done (.ok r)) ∧ ∀ r, new ≠ .done (.ok r)) := by
  rcases h with ⟨h1, h2⟩ | ⟨e, h1, h2⟩ | ⟨r, r', h1, h2, -, h3, -⟩
  · exact Or.inr ⟨(by rintro r hr; rw [h1] at hr; cases hr), (by rintro r hr; rw [h2] at hr; cases hr)⟩
  · exact Or.inr ⟨(by rintro r hr; rw [h1] at hr; cases hr), (by rintro r hr; rw [h2] at hr; cases hr)⟩
  · exact Or.inl ⟨r, r', h1, h2, h3⟩

/-- The expected behaviour: moving the zero point of all wavelengths moves the solution and nothing else. -/
def C138_Statement : Prop :=
  ∀ (F : FitEnv ℚ) (w : World ℚ) (a : FitArgs ℚ) (rnd : FitRandom ℚ) (t : ℚ), IsArgsort F.argsortK →
    AffineKernels (F.kern a.fitType) 1 t → (∀ v p σ, F.gauss (v + t) (p + t) σ = F.gauss v p σ) →
    a.fitCoeff ≠ some [] → a.brute = false → a.degree ≤ a.fitDeg → (w.fit F a rnd).1.cal.ht.points ≠ some (.array []) →
    SameFit (F.kern a.fitType) 1 t (w.fit F a rnd).2 ((affWorld 1 t w).fit F (affArgs 1 t a) rnd).2

/-- The two passes of the witness. -/
def Toy.twoPasses : FitRandom ℚ := ⟨fun _ => 0, [⟨[0, 2], [0, 0]⟩, ⟨[0, 0], [0, 0]⟩]⟩

/-- The Hough density is read with the slope on the intercept axis (`C68_refuted`), so the weight of a trial
depends on the zero point: four peaks are matched after a move by -2524, three before. -/
theorem C138_refuted : ¬ C138_Statement := by
  intro h
  have hc : (Toy.fourPeaks [4500, 5900, 7440, 8847]).toOption.map (fun w =>
      ((Toy.report (w.fit (Toy.scaleEnv Toy.root Toy.above) (Toy.fourArgs 2) Toy.twoPasses)).map
          FitReport.matchedPeaks,
       (Toy.report ((affWorld 1 (-2524) w).fit (Toy.scaleEnv Toy.root Toy.above)
          (affArgs 1 (-2524) (Toy.fourArgs 2)) Toy.twoPasses)).map FitReport.matchedPeaks,
       decide ((w.fit (Toy.scaleEnv Toy.root Toy.above) (Toy.fourArgs 2) Toy.twoPasses).1.cal.ht.points =
         some (.array [])))) = some (some [10, 20, 31], some [10, 20, 31, 41], false) := by decide +kernel
  cases hw : Toy.fourPeaks [4500, 5900, 7440, 8847] with
  | error e => rw [hw] at hc; cases hc
  | ok w =>
    rw [hw] at hc
    simp only [Except.toOption, Option.map_some, Option.some.injEq, Prod.mk.injEq, decide_eq_false_iff_not] at hc
    obtain ⟨h1, h2, h3⟩ := hc
    rw [Option.map_eq_some_iff] at h1 h2
    obtain ⟨r, hr, hm⟩ := h1
    obtain ⟨r', hr', hm'⟩ := h2
    have e := sameFit_same (h (Toy.scaleEnv Toy.root Toy.above) w (Toy.fourArgs 2) Toy.twoPasses (-2524) Toy.env_argsort
      (Toy.shiftKern _) (fun _ _ _ => rfl) (by decide) rfl (by decide) h3)
    rcases e with ⟨q, q', e1, e2, e3⟩ | ⟨e1, -⟩
    · rw [Toy.report_some _ _ hr] at e1
      rw [Toy.report_some _ _ hr'] at e2
      cases e1
      cases e2
      rw [hm, hm'] at e3
      exact absurd e3 (by decide)
    · exact e1 r (Toy.report_some _ _ hr)

/-- The expected behaviour without a weight for the density. -/
def C138_unweighted_Statement : Prop :=
  ∀ (F : FitEnv ℚ) (w : World ℚ) (a : FitArgs ℚ) (rnd : FitRandom ℚ) (t : ℚ), IsArgsort F.argsortK →
    AffineKernels (F.kern a.fitType) 1 t → (∀ v p σ, F.gauss (v + t) (p + t) σ = F.gauss v p σ) →
    a.fitCoeff ≠ some [] → a.brute = false → a.degree ≤ a.fitDeg → NoWeight w.cal →
    SameFit (F.kern a.fitType) 1 t (w.fit F a rnd).2 ((affWorld 1 t w).fit F (affArgs 1 t a) rnd).2

/-- A calibrator with two slopes and a narrow range: no line of the transform is in range. -/
def Toy.coarse : World ℚ :=
  Toy.ready.steps Toy.calEnv [.setHough { minW := some 3100, maxW := some 9000, rangeTol := some 1 },
    .setRansac { houghWeight := some (.fin 0) }]

/-- A wide search. -/
def Toy.wide : FitArgs ℚ := { Toy.args with candTol := 9000 }

/-- Six equal passes. -/
def Toy.sixPasses : FitRandom ℚ := ⟨fun _ => 0, List.replicate 6 ⟨[0, 0], [0, 1]⟩⟩

/-- A transform without any line in range has the bins of the unit square whatever the zero point. -/
theorem C138_empty_refuted : ¬ C138_unweighted_Statement := by
  intro h
  have hc : ((Toy.report (Toy.coarse.fit (Toy.scaleEnv Toy.root Toy.above) Toy.wide
        Toy.sixPasses)).map FitReport.matchedPeaks,
      (Toy.report ((affWorld 1 10000 Toy.coarse).fit (Toy.scaleEnv Toy.root Toy.above)
        (affArgs 1 10000 Toy.wide) Toy.sixPasses)).map FitReport.matchedPeaks,
      Toy.coarse.cal.ransac.houghWeight) = (some [10, 20], none, .fin 0) := by decide +kernel
  simp only [Prod.mk.injEq] at hc
  obtain ⟨h1, h2, h3⟩ := hc
  rw [Option.map_eq_some_iff] at h1
  obtain ⟨r, hr, hm⟩ := h1
  have e := sameFit_same (h (Toy.scaleEnv Toy.root Toy.above) Toy.coarse Toy.wide Toy.sixPasses 10000
    Toy.env_argsort (Toy.shiftKern _) (fun _ _ _ => rfl) (by decide) rfl (by decide) (by
      intro w hw; rw [h3] at hw; cases hw; rfl))
  rcases e with ⟨q, q', e1, e2, e3⟩ | ⟨e1, -⟩
  · unfold Toy.report at h2
    rw [e2] at h2
    cases h2
  · exact e1 r (Toy.report_some _ _ hr)

/-- The expected behaviour: all wavelengths and tolerances may be given in any unit. -/
def C139_Statement : Prop :=
  ∀ (F : FitEnv ℚ) (w : World ℚ) (a : FitArgs ℚ) (rnd : FitRandom ℚ) (s : ℚ), 0 < s → IsArgsort F.argsortK →
    AffineKernels (F.kern a.fitType) s 0 → (∀ v p σ, F.gauss (s * v) (s * p) (s * σ) = F.gauss v p σ) →
    a.fitCoeff ≠ some [] → NoWeight w.cal → ModestErrors s w.cal →
    (w.fit F a rnd).1.cal.ht.points ≠ some (.array []) →
    SameFit (F.kern a.fitType) s 0 (w.fit F a rnd).2 ((affWorld s 0 w).fit F (affArgs s 0 a) rnd).2

/-- A calibrator with one slope. -/
def Toy.oneSlope (w : World ℚ) : World ℚ :=
  w.steps Toy.calEnv [.setHough { numSlopes := some 1 }, .setRansac { houghWeight := some (.fin 0) }]

set_option synthInstance.maxSize 2000 in
set_option synthInstance.maxHeartbeats 400000 in
/-- Lines of one slope are put into bins between that slope minus and plus one half, in any unit: with
`num_slopes=1` a fit that succeeds in Angstrom fails in micrometre. -/
theorem C139_refuted : ¬ C139_Statement := by
  intro h
  have hc : (Toy.fourPeaks [4500, 5900, 7440, 8847]).toOption.map (fun v =>
      ((Toy.report ((Toy.oneSlope v).fit (Toy.scaleEnv (fun _ => 0) Toy.above) (Toy.fourArgs 1) Toy.twoPasses)).map
          FitReport.matchedPeaks,
       (Toy.report ((affWorld (1 / 10000) 0 (Toy.oneSlope v)).fit (Toy.scaleEnv (fun _ => 0) Toy.above)
          (affArgs (1 / 10000) 0 (Toy.fourArgs 1)) Toy.twoPasses)).map FitReport.matchedPeaks,
       (Toy.oneSlope v).cal.ransac.houghWeight, (Toy.oneSlope v).cal.peaks.length + (Toy.oneSlope v).cal.pairList.length, (Toy.oneSlope v).cal.ransac.tol,
       decide (((Toy.oneSlope v).fit (Toy.scaleEnv (fun _ => 0) Toy.above) (Toy.fourArgs 1) Toy.twoPasses).1.cal.ht.points =
         some (.array [])))) = some (some [10, 20, 31], none, .fin 0, 20, 5, false) := by decide +kernel
  cases hw : Toy.fourPeaks [4500, 5900, 7440, 8847] with
  | error e => rw [hw] at hc; cases hc
  | ok v =>
    rw [hw] at hc
    simp only [Except.toOption, Option.map_some, Option.some.injEq, Prod.mk.injEq, decide_eq_false_iff_not] at hc
    obtain ⟨h1, h2, h3, h4, h5, h6⟩ := hc
    rw [Option.map_eq_some_iff] at h1
    obtain ⟨r, hr, hm⟩ := h1
    have e := sameFit_same (h (Toy.scaleEnv (fun _ => 0) Toy.above) (Toy.oneSlope v) (Toy.fourArgs 1) Toy.twoPasses (1 / 10000) (by norm_num)
      Toy.env_argsort (Toy.unitKern (by norm_num)) (fun _ _ _ => rfl) (by decide) (by
        intro w hw; rw [h3] at hw; cases hw; rfl) (by unfold ModestErrors; rw [h4, h5]; norm_num) h6)
    rcases e with ⟨q, q', e1, e2, e3⟩ | ⟨e1, -⟩
    · unfold Toy.report at h2
      rw [e2] at h2
      cases h2
    · exact e1 r (Toy.report_some _ _ hr)

/-- A new calibrator for the cases. -/
def Toy.newCal : Cal ℚ := twoPeaks.toOption.get (by decide +kernel)

theorem Toy.newCal_eq : Cal.new (fun _ => .ok ()) [10, 20] true none = .ok Toy.newCal := by
  show twoPeaks = .ok (twoPeaks.toOption.get _)
  have h : ∀ (x : PyRes (Cal ℚ)) (hx : x.toOption.isSome), x = .ok (x.toOption.get hx) := by
    intro x hx
    cases x with
    | error e => cases hx
    | ok c => rfl
  exact h _ _

/-- Settings with all wavelengths given. -/
def Toy.fullHough : HoughArgs ℚ :=
  { numSlopes := some 2, xbins := some 4, ybins := some 4, minW := some 3000, maxW := some 9000,
    rangeTol := some 500, linTol := some 100 }

/-- Settings with both tolerances given; the density has no weight. -/
def Toy.fullRansac : RansacArgs ℚ :=
  { sampleSize := some 2, tol := some 5, minFitError := some 0, houghWeight := some (.fin 0) }

theorem Toy.full (s : ℚ) : FullHough Toy.fullHough ∧ FullRansac s Toy.fullRansac :=
  ⟨⟨rfl, rfl, rfl, rfl⟩, ⟨by decide, Or.inr ⟨rfl, rfl⟩⟩⟩

/-- The calibrator after the calls. -/
def Toy.configured : World ℚ :=
  World.steps Toy.calEnv ⟨[Toy.atlas], Toy.newCal⟩ ([.setHough Toy.fullHough, .setRansac Toy.fullRansac] ++
    [.setAtlas 0 10 false])

/-- A case for `C138_history_partial`: limits, a transform and a known pair, moved by 100. -/
example := C138_history_partial (100 : ℚ) Toy.calEnv
  [.setHough { minW := some 3100 }, .doHough false, .setKnown [.fin 10] [.fin 5900]] Toy.ready
  (by simp [Movable]) (by
    intro n
    match n with
    | 0 => decide +kernel
    | 1 => decide +kernel
    | 2 => decide +kernel
    | n + 3 => simp only [List.take_succ_cons, List.take_nil]; decide +kernel)

/-- A case for `C138_calibration_partial`: two peaks, moved by 10000; the fit succeeds. -/
example := C138_calibration_partial (10000 : ℚ) Toy.calEnv (Toy.scaleEnv Toy.root Toy.above) Toy.env_argsort
  Toy.newCal_eq [Toy.atlas] Toy.fullHough Toy.fullRansac (Toy.full 1).1 (Toy.full 1).2 [.setAtlas 0 10 false]
  (by simp [Movable]) Toy.args Toy.rnd (Toy.shiftKern _) (by decide) rfl (by decide) Toy.configured rfl (by
    intro n
    match n with
    | 0 => decide +kernel
    | n + 1 => simp only [List.take_succ_cons, List.take_nil]; decide +kernel)
  (by decide +kernel) (Or.inr (fun _ _ _ => rfl)) (by
    have h : Toy.configured.cal.ransac.houghWeight = .fin 0 := by decide +kernel
    intro w hw; rw [h] at hw; cases hw; rfl)

example : Toy.report (Toy.configured.fit (Toy.scaleEnv Toy.root Toy.above) Toy.args Toy.rnd) = some Toy.found := by
  decide +kernel

/-- The points of the transform with five slopes. -/
def Toy.fivePoints : List (ℚ × ℚ) :=
  [(5300 / 21, 70900 / 21), (5900 / 21, 64900 / 21), (5900 / 21, 64700 / 21), (6500 / 21, 58900 / 21),
   (6500 / 21, 52700 / 21), (7100 / 21, 52900 / 21)]

theorem Toy.spread {s : ℚ} : ∀ pts, some (PointStore.array Toy.fivePoints) = some (.array pts) →
    SpreadPoints s pts := by
  rintro pts h
  cases h
  exact ⟨by decide +kernel, Or.inr ⟨⟨(5300 / 21, 70900 / 21), by decide +kernel, (5900 / 21, 64900 / 21), by decide +kernel, by decide +kernel⟩,
    ⟨(5300 / 21, 70900 / 21), by decide +kernel, (5900 / 21, 64900 / 21), by decide +kernel, by decide +kernel⟩⟩⟩

/-- The calls of the case. -/
def Toy.unitOps : List (SetOp ℚ) :=
  [.setHough { numSlopes := some 5 }, .doHough false, .setKnown [.fin 10] [.fin 5900]]

theorem Toy.unitOps_points : (Toy.ready.steps Toy.calEnv (Toy.unitOps.take 0)).cal.ht.points = none ∧
    (Toy.ready.steps Toy.calEnv (Toy.unitOps.take 1)).cal.ht.points = none ∧
    (Toy.ready.steps Toy.calEnv (Toy.unitOps.take 2)).cal.ht.points = some (.array Toy.fivePoints) ∧
    (Toy.ready.steps Toy.calEnv Toy.unitOps).cal.ht.points = some (.array Toy.fivePoints) := by
  decide +kernel

/-- A case for `C139_history_partial`: a transform and a known pair in nanometre. -/
example := C139_history_partial (s := (1 / 10 : ℚ)) (by norm_num) Toy.calEnv Toy.unitOps Toy.ready
  (by simp [Movable, Toy.unitOps]) (by
    intro n pts h
    obtain ⟨h0, h1, h2, h3⟩ := Toy.unitOps_points
    rcases n with _ | _ | _ | n
    · cases h0.symm.trans h
    · cases h1.symm.trans h
    · exact Toy.spread pts (h2.symm.trans h)
    · rw [List.take_of_length_le (by simp [Toy.unitOps]), h3] at h
      exact Toy.spread pts h)

/-- The calibrator with five slopes. -/
def Toy.configured5 : World ℚ :=
  World.steps Toy.calEnv ⟨[Toy.atlas], Toy.newCal⟩ ([.setHough { Toy.fullHough with numSlopes := some 5 },
    .setRansac Toy.fullRansac] ++ [.setAtlas 0 10 false])

theorem Toy.configured5_points :
    (World.steps Toy.calEnv ⟨[Toy.atlas], Toy.newCal⟩ [.setHough { Toy.fullHough with numSlopes := some 5 },
      .setRansac Toy.fullRansac]).cal.ht.points = none ∧ Toy.configured5.cal.ht.points = none := by
  decide +kernel

/-- A case for `C139_calibration_partial`: two peaks, in nanometre; the fit succeeds. -/
example := C139_calibration_partial (s := (1 / 10 : ℚ)) (by norm_num) Toy.calEnv
  (Toy.scaleEnv (fun _ => 0) Toy.above) Toy.env_argsort Toy.newCal_eq [Toy.atlas]
  { Toy.fullHough with numSlopes := some 5 } Toy.fullRansac (Toy.full 1).1 (Toy.full (1 / 10)).2
  [.setAtlas 0 10 false] (by simp [Movable]) Toy.args Toy.rnd (Toy.unitKern (by norm_num)) (by decide)
  Toy.configured5 rfl (by
    intro n pts h
    exfalso
    rcases n with _ | n
    · cases Toy.configured5_points.1.symm.trans h
    · rw [List.take_of_length_le (by simp)] at h
      cases Toy.configured5_points.2.symm.trans h) (by
    rw [show (Toy.configured5.fit (Toy.scaleEnv (fun _ => 0) Toy.above) Toy.args Toy.rnd).1.cal.ht.points =
      some (.array Toy.fivePoints) by decide +kernel]
    exact Toy.spread) (Or.inr (fun _ _ _ => rfl)) (Or.inr ⟨by
      have h : Toy.configured5.cal.ransac.houghWeight = .fin 0 := by decide +kernel
      intro w hw; rw [h] at hw; cases hw; rfl, by
      have h1 : Toy.configured5.cal.peaks.length + Toy.configured5.cal.pairList.length = 12 := by decide +kernel
      have h2 : Toy.configured5.cal.ransac.tol = 5 := by decide +kernel
      unfold ModestErrors
      rw [h1, h2]
      norm_num⟩)

example : (Toy.report (Toy.configured5.fit (Toy.scaleEnv (fun _ => 0) Toy.above) Toy.args Toy.rnd)).map
    FitReport.matchedPeaks = some [10, 20] := by decide +kernel

end Rascal
