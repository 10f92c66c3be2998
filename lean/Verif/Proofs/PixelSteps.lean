import Verif.Proofs.PixelFit

/-! Effect of a change of the pixel scale on the configuration calls. -/

set_option linter.unusedSectionVars false

namespace Rascal

open Spec

variable {K : Type _} [Field K] [LinearOrder K] [IsStrictOrderedRing K]

section
variable {s : K} (hs : 0 < s)
include hs

theorem allPairs_pix (peaks lines : List K) :
    allPairs (peaks.map (fun v => s * v)) lines = (allPairs peaks lines).map (pixPair s) := by
  unfold allPairs
  rw [List.map_flatMap, List.flatMap_map]
  congr 1
  funext p
  rw [List.map_map]
  rfl

/-- The polygon on the new pixel scale (src/rascal/calibrator.py:110-127). -/
def pixPolygon (s : K) (g : Polygon K) : Polygon K := { g with lastPix := s * g.lastPix }

theorem inside_pix (g : Polygon K) (p : K × K) : (pixPolygon s g).inside (pixPair s p) = g.inside p := by
  unfold Polygon.inside pixPolygon pixPair
  dsimp only
  rw [mul_div_mul_left _ _ hs.ne']

theorem flat_pix (g : Polygon K) : (pixPolygon s g).flat = g.flat := by
  unfold Polygon.flat pixPolygon
  simp only [mul_eq_zero, hs.ne', false_or]

theorem listMax_pix (a : K) (l : List K) :
    listMax (s * a) (l.map (fun v => s * v)) = s * listMax a l :=
  listMax_map hs (f := fun v => s * v) (scale_strictMono hs).monotone a l

theorem listMin_pix (a : K) (l : List K) :
    listMin (s * a) (l.map (fun v => s * v)) = s * listMin a l :=
  listMin_map hs (f := fun v => s * v) (scale_strictMono hs).monotone a l

theorem calPairs_pix (c : Cal K) (lines : List K) :
    (pixCal s c).generatePairs lines = (pixCal s (c.generatePairs lines).1, (c.generatePairs lines).2) := by
  have key : ∀ tol last : K, Rascal.generatePairs (c.peaks.map (fun v => s * v)) lines
      (some (pixPolygon s (c.polygon tol last))) =
      (Rascal.generatePairs c.peaks lines (some (c.polygon tol last))).map (List.map (pixPair s)) := by
    intro tol last
    unfold Rascal.generatePairs
    dsimp only
    rw [flat_pix hs, allPairs_pix hs]
    have hm : boolMask ((allPairs c.peaks lines).map (pixPair s))
        (((allPairs c.peaks lines).map (pixPair s)).map (pixPolygon s (c.polygon tol last)).inside) =
        (boolMask (allPairs c.peaks lines)
          ((allPairs c.peaks lines).map (c.polygon tol last).inside)).map (pixPair s) := by
      rw [boolMask_map, List.map_map]
      congr 2
      apply List.map_congr_left
      intro p _
      exact inside_pix hs _ p
    rw [hm]
    simp only [List.map_eq_nil_iff]
    split
    · rfl
    · split <;> rfl
  obtain ⟨peaks, arr, props, hough, ransac, atlas, ct, cp, pairs, ht, hl, hp, known, mp, ma, co, rms, res, pu, au⟩ := c
  obtain ⟨np, pl, lib, um, up⟩ := props
  unfold Cal.generatePairs
  cases cp with
  | true =>
    cases ct with
    | none => rfl
    | some tol =>
      cases pl with
      | nil => rfl
      | cons a l =>
        have hk := key tol (listMax a l)
        simp only [pixCal, pixProps, List.map_cons, if_true, listMax_pix hs] at hk ⊢
        unfold Cal.polygon at hk ⊢
        simp only [pixPolygon, pixHoughSet] at hk ⊢
        rw [hk]
        generalize Rascal.generatePairs peaks lines _ = r
        cases r <;> rfl
  | false =>
    simp only [pixCal, Bool.false_eq_true, if_false, allPairs_pix hs, List.map_eq_nil_iff]
    split <;> rfl

theorem worldPairs_pix (w : World K) :
    (pixWorld s w).generatePairs = (pixWorld s w.generatePairs.1, w.generatePairs.2) := by
  unfold World.generatePairs
  rw [show (pixWorld s w).atlasLines = w.atlasLines from rfl]
  cases w.atlasLines with
  | error e => rfl
  | ok lines =>
    dsimp only
    rw [show (pixWorld s w).cal = pixCal s w.cal from rfl, calPairs_pix hs]
    rfl

theorem setAtlas_pix (w : World K) (i : Nat) (tol : K) (b : Bool) :
    (pixWorld s w).setAtlas i tol b = (pixWorld s (w.setAtlas i tol b).1, (w.setAtlas i tol b).2) := by
  unfold World.setAtlas
  rw [← worldPairs_pix hs]
  rfl

theorem div_pix (v r : K) :
    PyFloat.div (.fin v) (.fin (s * r)) = mapFin (fun v => v / s) (PyFloat.div (.fin v) (.fin r)) := by
  simp only [PyFloat.div]
  by_cases hr : r = 0
  · simp only [hr, mul_zero, if_true]
    split
    · rfl
    · split <;> rfl
  · have : s * r ≠ 0 := mul_ne_zero hs.ne' hr
    simp only [hr, this, if_false, mapFin, div_div]
    rw [mul_comm]

theorem ptp_pix (l : List K) : ptp (l.map (fun v => s * v)) = (ptp l).map (fun v => s * v) := by
  cases l with
  | nil => rfl
  | cons a l =>
    unfold ptp
    simp only [List.map_cons, listMax_pix hs, listMin_pix hs, Except.map, mul_sub]

theorem houghApply_pix (h : HoughSet K) (a : HoughArgs K) (pix : List K) :
    HoughSet.apply (some (pixHoughSet s h)) a (pix.map (fun v => s * v)) =
      (pixHoughSet s (HoughSet.apply (some h) a pix).1, (HoughSet.apply (some h) a pix).2) := by
  unfold HoughSet.apply
  rw [ptp_pix hs]
  cases ptp pix with
  | error e => rfl
  | ok r =>
    simp only [Except.map, HoughSet.setIntercepts, HoughSet.setSlopes, pixHoughSet, div_pix hs, Option.map_some]

theorem setHough_pix (w : World K) (a : HoughArgs K) :
    (pixWorld s w).setHough a = (pixWorld s (w.setHough a).1, (w.setHough a).2) := by
  unfold World.setHough
  have h := houghApply_pix hs w.cal.hough a w.cal.props.pixelList
  rw [show (pixWorld s w).cal.hough = pixHoughSet s w.cal.hough from rfl,
    show (pixWorld s w).cal.props.pixelList = w.cal.props.pixelList.map (fun v => s * v) from rfl,
    show (pixWorld s w).cal.atlas = w.cal.atlas from rfl, h]
  generalize HoughSet.apply (some w.cal.hough) a w.cal.props.pixelList = r
  obtain ⟨h', e⟩ := r
  dsimp only
  cases e with
  | error e => rfl
  | ok _ =>
    dsimp only
    obtain ⟨atl, c⟩ := w
    obtain ⟨peaks, arr, props, hough, ransac, atlas, ct, cp, pairs, ht, hl, hp, known, mp, ma, co, rms, res, pu, au⟩ :=
      c
    cases atlas with
    | none => rfl
    | some i =>
      dsimp only
      rw [← worldPairs_pix hs]
      rfl

theorem setProps_pix (interp : List K → PyRes Unit) (hi : ∀ l : List K, interp (l.map (fun v => s * v)) = interp l)
    (p : CalProps K) (n : Option K) (pl : Option (List K)) (lib : Option PlotLib) :
    (pixProps s p).set interp (n.map (fun v => s * v)) (pl.map (fun q => q.map (fun v => s * v))) lib =
      (pixProps s (p.set interp n pl lib).1, (p.set interp n pl lib).2) := by
  unfold CalProps.set
  have h1 : keepOr (some (pixProps s p).pixelList) (pl.map (fun q => q.map (fun v => s * v))) (pixProps s p).pixelList =
      (keepOr (some p.pixelList) pl p.pixelList).map (fun v => s * v) := by cases pl <;> rfl
  have h2 : keepOr (some (pixProps s p).numPix) (n.map (fun v => s * v)) (pixProps s p).numPix =
      s * keepOr (some p.numPix) n p.numPix := by cases n <;> rfl
  simp only [h1, h2, hi]
  cases interp (keepOr (some p.pixelList) pl p.pixelList) with
  | error e => rfl
  | ok _ =>
    dsimp only
    rw [show (pixProps s p).plottingLibrary = p.plottingLibrary from rfl]
    generalize keepOr (some p.plottingLibrary) lib PlotLib.matplotlib = L
    cases L <;> rfl

theorem setKnown_pix (c : Cal K) (p v : List (PyFloat K)) :
    (pixCal s c).setKnown (p.map (mapFin (fun v => s * v))) v =
      (pixCal s (c.setKnown p v).1, (c.setKnown p v).2) := by
  unfold Cal.setKnown
  have h : (p.map (mapFin (fun v => s * v))).all (fun v => decide (v ≠ .nan)) = p.all (fun v => decide (v ≠ .nan)) := by
    rw [List.all_map]
    congr 1
    funext x
    cases x <;> simp [mapFin]
  rw [List.length_map, h]
  split
  · split
    · split <;> rfl
    · rfl
  · rfl

/-- A configuration call and the same call on the new pixel scale. -/
theorem step_pix (E : CalEnv K) (hi : ∀ l : List K, E.interp (l.map (fun v => s * v)) = E.interp l)
    (ha : ScaleFreeSort s E.argsortK) (w : World K) (op : SetOp K) (hm : Rescalable op)
    (hp : ∀ pts, (w.step E op).1.cal.ht.points = some (.array pts) → SpreadSlopes pts) :
    (pixWorld s w).step E (pixOp s op) = (pixWorld s (w.step E op).1, (w.step E op).2) := by
  cases op with
  | setCalibrator n p l =>
    simp only [World.step, pixOp, World.setCalibrator]
    rw [show (pixWorld s w).cal.props = pixProps s w.cal.props from rfl, setProps_pix hs E.interp hi]
    rfl
  | useMatplotlib => rfl
  | usePlotly => rfl
  | setHough a => exact setHough_pix hs w a
  | setRansac a => rfl
  | setAtlas i tol b => exact setAtlas_pix hs w i tol b
  | addAtlas a tol b =>
    simp only [World.step, pixOp, World.addAtlas, show (pixWorld s w).cal.atlas = w.cal.atlas from rfl,
      show (pixWorld s w).atlases = w.atlases from rfl]
    have hf : (pixWorld s w).cal.hough.fillLimits a = w.cal.hough.fillLimits a := rfl
    rw [hf, show (pixWorld s w).cal.hough.rangeTol = w.cal.hough.rangeTol from rfl]
    cases w.cal.atlas with
    | none =>
      dsimp only
      cases Atlas.new E.env (w.cal.hough.fillLimits a) w.cal.hough.rangeTol with
      | error e => rfl
      | ok at_ => exact setAtlas_pix hs { w with atlases := w.atlases ++ [at_] } _ tol b
    | some i =>
      dsimp only
      cases w.atlases[i]? with
      | none => rfl
      | some at_ =>
        dsimp only
        cases (Atlas.add E.env at_ (w.cal.hough.fillLimits a)).2 with
        | error e => rfl
        | ok _ => exact setAtlas_pix hs (w.modifyAtlas i _) i tol b
  | loadHough d f t => exact hm.elim
  | clearAtlas =>
    simp only [World.step, pixOp, World.clearAtlas, show (pixWorld s w).cal.atlas = w.cal.atlas from rfl]
    cases w.cal.atlas <;> rfl
  | removeRange v tol =>
    simp only [World.step, pixOp, World.removeRange, show (pixWorld s w).cal.atlas = w.cal.atlas from rfl]
    cases w.cal.atlas <;> rfl
  | editAtlas i f => rfl
  | doHough b =>
    simp only [World.step, pixOp] at hp ⊢
    rw [show (pixWorld s w).cal = pixCal s w.cal from rfl, doHough_pix hs w.cal _ ha _ b hp]
    rfl
  | setKnown p v =>
    simp only [World.step, pixOp]
    rw [show (pixWorld s w).cal = pixCal s w.cal from rfl, setKnown_pix hs]
    rfl
  | addUserAtlas f tol b =>
    simp only [World.step, pixOp, World.addUserAtlas]
    have he : World.ensureAtlas E.emptyAtlas (pixWorld s w) = pixWorld s (World.ensureAtlas E.emptyAtlas w) := by
      unfold World.ensureAtlas
      rw [show (pixWorld s w).cal.atlas = w.cal.atlas from rfl]
      cases w.cal.atlas <;> rfl
    rw [he]
    generalize World.ensureAtlas E.emptyAtlas w = w0
    rw [show (pixWorld s w0).cal.atlas = w0.cal.atlas from rfl, show (pixWorld s w0).atlases = w0.atlases from rfl]
    cases w0.cal.atlas with
    | none => rfl
    | some i =>
      dsimp only
      cases w0.atlases[i]? with
      | none => rfl
      | some x =>
        dsimp only
        cases (f x).2 with
        | error e => rfl
        | ok _ => exact setAtlas_pix hs (w0.modifyAtlas i _) i tol b

/-- No call of a history leaves a transform whose lines all have one slope
(src/rascal/houghtransform.py:183-187). -/
def Spec.SlopesHistory (E : CalEnv K) (w : World K) (ops : List (SetOp K)) : Prop :=
  ∀ n pts, (w.steps E (ops.take n)).cal.ht.points = some (.array pts) → SpreadSlopes pts

theorem steps_pix (E : CalEnv K) (hi : ∀ l : List K, E.interp (l.map (fun v => s * v)) = E.interp l)
    (ha : ScaleFreeSort s E.argsortK) (ops : List (SetOp K)) : ∀ w : World K,
    (∀ op ∈ ops, Rescalable op) → SlopesHistory E w ops →
    (pixWorld s w).steps E (ops.map (pixOp s)) = pixWorld s (w.steps E ops) := by
  induction ops with
  | nil => intro w _ _; rfl
  | cons op ops ih =>
    intro w hm hp
    have h1 := step_pix hs E hi ha w op (hm op (by simp)) (fun pts h => hp 1 pts h)
    have h2 := ih (w.step E op).1 (fun o ho => hm o (by simp [ho])) (fun n pts h => hp (n + 1) pts h)
    unfold World.steps at h2 ⊢
    rw [List.map_cons, List.foldl_cons, List.foldl_cons, h1]
    exact h2

omit hs in
/-- `set_hough_properties` overwrites the slope bounds (src/rascal/calibrator.py:1092-1116). -/
theorem setHough_slopes (w : World K) (x : HoughArgs K) (m1 m2 : PyFloat K) (hl : w.cal.props.pixelList ≠ []) :
    w.setHough x =
      World.setHough { w with cal := { w.cal with
        hough := { w.cal.hough with minSlope := m1, maxSlope := m2 } } } x := by
  obtain ⟨atl, c⟩ := w
  obtain ⟨peaks, arr, props, hough, ransac, atlas, ct, cp, pairs, ht, hl', hp, known, mp, ma, co, rms, res, pu, au⟩ := c
  obtain ⟨np, pl, lib, um, up⟩ := props
  cases pl with
  | nil => exact absurd rfl hl
  | cons a l => rfl

/-- New calibrators correspond once the pixels are given and the limits are computed from them. -/
theorem fresh_pix [FloorRing K] (E : CalEnv K) (hi : ∀ l : List K, E.interp (l.map (fun v => s * v)) = E.interp l)
    {interp : List K → PyRes Unit} {peaks : List K} {arr : Bool} {sp sp' : Option (List K)} {c c' : Cal K}
    (hc : Cal.new interp peaks arr sp = .ok c) (hc' : Cal.new interp (peaks.map (fun v => s * v)) arr sp' = .ok c')
    (A : List (Atlas K)) (n : K) (pl : List K) (hpl : pl ≠ []) (lib : Option PlotLib) (x : HoughArgs K) :
    World.steps E ⟨A, c'⟩ ([.setCalibrator (some n) (some pl) lib, .setHough x].map (pixOp s)) =
    pixWorld s (World.steps E ⟨A, c⟩ [.setCalibrator (some n) (some pl) lib, .setHough x]) := by
  have hcal : ∀ {peaks : List K} {sp : Option (List K)} {c : Cal K}, Cal.new interp peaks arr sp = .ok c →
      ∃ n0 p0, ∃ h0 : HoughSet K, ∃ q0 : List K, h0 = (HoughSet.apply none {} q0).1 ∧ c =
        { peaks := peaks, peaksAreArray := arr, props := CalProps.applyLibrary ⟨n0, p0, .matplotlib, false, false⟩,
          hough := h0, ransac := RansacSet.init, atlas := none, candTol := none, constrainPoly := false,
          pairs := none, ht := Hough.init, houghLines := none, houghPoints := none, known := none,
          matchedPeaks := [], matchedAtlas := [], fitCoeff := none, rms := none, residual := none,
          peakUtil := none, atlasUtil := none } := by
    intro peaks sp c hc
    unfold Cal.new CalProps.init at hc
    cases hn : defaultNumPix peaks sp with
    | error e => rw [hn] at hc; cases hc
    | ok n0 =>
      rw [hn] at hc
      dsimp only at hc
      cases hi0 : interp (arangeTo n0) with
      | error e => rw [hi0] at hc; cases hc
      | ok _ =>
        rw [hi0] at hc
        dsimp only at hc
        split at hc
        · cases hc
        · rename_i h u hh
          cases hc
          exact ⟨_, _, h, _, (congrArg Prod.fst hh).symm, rfl⟩
  obtain ⟨n1, p1, h1, q1, e1, rfl⟩ := hcal hc
  obtain ⟨n2, p2, h2, q2, e2, rfl⟩ := hcal hc'
  subst e1 e2
  have hq : ∀ q : List K, ∃ m1 m2 : PyFloat K, (HoughSet.apply none {} q).1 =
      { (HoughSet.apply (none : Option (HoughSet K)) {} []).1 with minSlope := m1, maxSlope := m2 } := by
    intro q
    unfold HoughSet.apply
    cases ptp q with
    | error e => exact ⟨_, _, rfl⟩
    | ok r => exact ⟨_, _, rfl⟩
  obtain ⟨u1, v1, g1⟩ := hq q1
  obtain ⟨u2, v2, g2⟩ := hq q2
  rw [g1, g2]
  have hset : ∀ n0 p0 n3 p3, (CalProps.set E.interp (CalProps.applyLibrary ⟨n0, p0, .matplotlib, false, false⟩)
      (some (s * n)) (some (pl.map (fun v => s * v))) lib).1 = pixProps s (CalProps.set E.interp
        (CalProps.applyLibrary ⟨n3, p3, .matplotlib, false, false⟩) (some n) (some pl) lib).1 := by
    intro n0 p0 n3 p3
    unfold CalProps.set
    simp only [keepOr, hi]
    cases E.interp pl <;> cases lib <;> first | rfl | (rename_i L; cases L <;> rfl)
  have hpl' : (CalProps.set E.interp (CalProps.applyLibrary ⟨n1, p1, .matplotlib, false, false⟩)
      (some n) (some pl) lib).1.pixelList = pl := by
    unfold CalProps.set
    simp only [keepOr]
    cases E.interp pl <;> cases lib <;> first | rfl | (rename_i L; cases L <;> rfl)
  simp only [World.steps, List.map_cons, List.map_nil, List.foldl_cons, List.foldl_nil]
  simp only [World.step, pixOp, World.setCalibrator, Option.map_some]
  rw [hset n2 p2 n1 p1]
  rw [setHough_slopes _ x (mapFin (fun v => v / s) u1) (mapFin (fun v => v / s) v1)
    (by simpa [pixProps, hpl'] using hpl)]
  refine Eq.trans ?_ (congrArg Prod.fst (setHough_pix hs _ x))
  rfl

end

end Rascal
