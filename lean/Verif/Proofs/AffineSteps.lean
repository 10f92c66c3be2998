import Verif.Proofs.AffineFit

/-! Effect of a change of the wavelength scale on the configuration calls. -/

set_option linter.unusedSectionVars false

namespace Rascal

open Spec

variable {K : Type _} [Field K] [LinearOrder K] [IsStrictOrderedRing K]

section
variable {s t : K} (hs : 0 < s)
include hs

theorem unaff_affAtlas (a : Atlas K) : unaffAtlas s t (affAtlas s t a) = a := by
  have hs0 := hs.ne'
  have hv : ∀ v : K, aff s⁻¹ (-t / s) (aff s t v) = v := by
    intro v
    unfold aff
    field_simp
    ring
  have hm : ∀ o : Option (PyFloat K), (o.map (mapFin (aff s t))).map (mapFin (aff s⁻¹ (-t / s))) = o := by
    intro o
    cases o with
    | none => rfl
    | some v => cases v <;> simp [mapFin, hv]
  obtain ⟨lines, lo, hi, r⟩ := a
  unfold unaffAtlas affAtlas
  simp only [hm, List.map_map]
  congr 1
  · have : (affAtlasLine s⁻¹ (-t / s)) ∘ (affAtlasLine s t) = id := by
      funext l
      simp [affAtlasLine, hv]
    rw [this, List.map_id]
  · field_simp

theorem allPairs_aff (peaks lines : List K) :
    allPairs peaks (lines.map (aff s t)) = (allPairs peaks lines).map (affPair s t) := by
  unfold allPairs
  rw [List.map_flatMap]
  congr 1
  funext p
  rw [List.map_map, List.map_map]
  rfl

theorem aff_min (a b : K) : min (aff s t a) (aff s t b) = aff s t (min a b) :=
  ((aff_strictMono hs).monotone.map_min).symm

theorem aff_max (a b : K) : max (aff s t a) (aff s t b) = aff s t (max a b) :=
  ((aff_strictMono hs).monotone.map_max).symm

/-- The polygon on the new scale (src/rascal/calibrator.py:110-127). -/
def affPolygon (s t : K) (g : Polygon K) : Polygon K :=
  ⟨g.lastPix, aff s t g.lo0, aff s t g.hi0, aff s t g.loP, aff s t g.hiP⟩

theorem inside_aff (g : Polygon K) (p : K × K) : (affPolygon s t g).inside (affPair s t p) = g.inside p := by
  unfold Polygon.inside affPolygon affPair
  dsimp only
  rw [aff_min hs, aff_min hs, aff_max hs, aff_max hs]
  have h : ∀ r a b : K, (1 - r) * aff s t a + r * aff s t b = aff s t ((1 - r) * a + r * b) := by
    intro r a b
    unfold aff
    ring
  simp only [h, aff_le hs]

theorem flat_aff (g : Polygon K) : (affPolygon s t g).flat = g.flat := by
  unfold Polygon.flat affPolygon
  simp only [aff_inj hs]

theorem polygon_aff (c : Cal K) (tol last : K) :
    (affCal s t c).polygon (s * tol) last = affPolygon s t (c.polygon tol last) := by
  unfold Cal.polygon affPolygon affCal affHoughSet aff
  dsimp only
  congr 1 <;> ring

theorem calPairs_aff (c : Cal K) (lines : List K) :
    (affCal s t c).generatePairs (lines.map (aff s t)) =
      (affCal s t (c.generatePairs lines).1, (c.generatePairs lines).2) := by
  have key : ∀ tol last : K, Rascal.generatePairs c.peaks (lines.map (aff s t))
      (some ((affCal s t c).polygon (s * tol) last)) =
      (Rascal.generatePairs c.peaks lines (some (c.polygon tol last))).map (List.map (affPair s t)) := by
    intro tol last
    rw [polygon_aff hs]
    unfold Rascal.generatePairs
    dsimp only
    rw [flat_aff hs, allPairs_aff hs]
    have hm : boolMask ((allPairs c.peaks lines).map (affPair s t))
        (((allPairs c.peaks lines).map (affPair s t)).map (affPolygon s t (c.polygon tol last)).inside) =
        (boolMask (allPairs c.peaks lines)
          ((allPairs c.peaks lines).map (c.polygon tol last).inside)).map (affPair s t) := by
      rw [boolMask_map, List.map_map]
      congr 2
      apply List.map_congr_left
      intro p _
      exact inside_aff hs _ p
    rw [hm]
    simp only [List.map_eq_nil_iff]
    split
    · rfl
    · split <;> rfl
  obtain ⟨peaks, arr, props, hough, ransac, atlas, ct, cp, pairs, ht, hl, hp, known, mp, ma, co, rms, res, pu, au⟩ := c
  obtain ⟨np, pl, lib, um, up⟩ := props
  unfold Cal.generatePairs
  cases cp with
  | true =>
    cases ct with
    | none => rfl
    | some tol =>
      cases pl with
      | nil => rfl
      | cons a l =>
        have hk := key tol (listMax a l)
        simp only [affCal, if_true, Option.map_some] at hk ⊢
        rw [hk]
        generalize Rascal.generatePairs peaks lines _ = r
        cases r <;> rfl
  | false =>
    simp only [affCal, Bool.false_eq_true, if_false, allPairs_aff hs, List.map_eq_nil_iff]
    split <;> rfl

theorem worldPairs_aff (w : World K) :
    (affWorld s t w).generatePairs = (affWorld s t w.generatePairs.1, w.generatePairs.2) := by
  unfold World.generatePairs
  rw [atlasLines_aff hs]
  cases w.atlasLines with
  | error e => rfl
  | ok lines =>
    simp only [Except.map]
    rw [show (affWorld s t w).cal = affCal s t w.cal from rfl, calPairs_aff hs]
    rfl

theorem setAtlas_aff (w : World K) (i : Nat) (tol : K) (b : Bool) :
    (affWorld s t w).setAtlas i (s * tol) b = (affWorld s t (w.setAtlas i tol b).1, (w.setAtlas i tol b).2) := by
  unfold World.setAtlas
  rw [← worldPairs_aff hs]
  rfl

theorem modifyAtlas_aff (w : World K) (i : Nat) (f f' : Atlas K → Atlas K)
    (h : ∀ x, f' (affAtlas s t x) = affAtlas s t (f x)) :
    (affWorld s t w).modifyAtlas i f' = affWorld s t (w.modifyAtlas i f) := by
  unfold World.modifyAtlas affWorld
  dsimp only
  congr 1
  apply List.ext_getElem?
  intro j
  simp only [List.getElem?_modify, List.getElem?_map]
  cases w.atlases[j]? with
  | none => rfl
  | some x =>
    by_cases hij : i = j
    · simp [hij, h]
    · simp [hij]

theorem houghApply_aff (h : HoughSet K) (a : HoughArgs K) (pix : List K) :
    HoughSet.apply (some (affHoughSet s t h)) (affHoughArgs s t a) pix =
      (affHoughSet s t (HoughSet.apply (some h) a pix).1, (HoughSet.apply (some h) a pix).2) := by
  have hk : ∀ (f : K → K) (cur : K) (arg : Option K) (d d' : K),
      keepOr (some (f cur)) (arg.map f) d' = f (keepOr (some cur) arg d) := by
    intro f cur arg d d'
    cases arg <;> rfl
  unfold HoughSet.apply
  simp only [Option.map_some, affHoughArgs]
  have e1 := hk (aff s t) h.minW a.minW 3000 3000
  have e2 := hk (aff s t) h.maxW a.maxW 9000 9000
  have e3 := hk (fun v => s * v) h.rangeTol a.rangeTol 500 500
  have e4 := hk (fun v => s * v) h.linTol a.linTol 100 100
  simp only [show (affHoughSet s t h).minW = aff s t h.minW from rfl,
    show (affHoughSet s t h).maxW = aff s t h.maxW from rfl,
    show (affHoughSet s t h).rangeTol = s * h.rangeTol from rfl,
    show (affHoughSet s t h).linTol = s * h.linTol from rfl,
    show (affHoughSet s t h).numSlopes = h.numSlopes from rfl,
    show (affHoughSet s t h).xbins = h.xbins from rfl,
    show (affHoughSet s t h).ybins = h.ybins from rfl, e1, e2]
  rw [e3, e4]
  generalize keepOr (some h.minW) a.minW 3000 = lo
  generalize keepOr (some h.maxW) a.maxW 9000 = hi
  generalize keepOr (some h.rangeTol) a.rangeTol 500 = rt
  generalize keepOr (some h.linTol) a.linTol 100 = lt
  have f1 : aff s t lo - s * rt = aff s t (lo - rt) := by unfold aff; ring
  have f2 : aff s t lo + s * rt = aff s t (lo + rt) := by unfold aff; ring
  cases ptp pix with
  | error e => simp only [HoughSet.setIntercepts, affHoughSet, keepOr, f1, f2]
  | ok r =>
    simp only [HoughSet.setIntercepts, HoughSet.setSlopes, affHoughSet, f1, f2]
    have g1 : aff s t hi - s * rt - s * lt - (aff s t (lo - rt) + s * rt + s * lt) =
        s * (hi - rt - lt - (lo - rt + rt + lt)) := by unfold aff; ring
    have g2 : aff s t hi + s * rt + s * lt - (aff s t (lo - rt) - s * rt - s * lt) =
        s * (hi + rt + lt - (lo - rt - rt - lt)) := by unfold aff; ring
    rw [g1, g2, div_scale_fin hs, div_scale_fin hs]

theorem setHough_aff (w : World K) (a : HoughArgs K) :
    (affWorld s t w).setHough (affHoughArgs s t a) =
      (affWorld s t (w.setHough a).1, (w.setHough a).2) := by
  unfold World.setHough
  have h := houghApply_aff (t := t) hs w.cal.hough a w.cal.props.pixelList
  rw [show (affWorld s t w).cal.hough = affHoughSet s t w.cal.hough from rfl,
    show (affWorld s t w).cal.props = w.cal.props from rfl,
    show (affWorld s t w).cal.atlas = w.cal.atlas from rfl, h]
  generalize HoughSet.apply (some w.cal.hough) a w.cal.props.pixelList = r
  obtain ⟨h', e⟩ := r
  dsimp only
  cases e with
  | error e => rfl
  | ok _ =>
    dsimp only
    obtain ⟨atl, c⟩ := w
    obtain ⟨peaks, arr, props, hough, ransac, atlas, ct, cp, pairs, ht, hl, hp, known, mp, ma, co, rms, res, pu, au⟩ :=
      c
    cases atlas with
    | none => rfl
    | some i =>
      dsimp only
      rw [← worldPairs_aff hs]
      rfl

theorem setRansac_aff (r : RansacSet K) (a : RansacArgs K) :
    (affRansacSet s r).set (affRansacArgs s a) = (affRansacSet s (r.set a).1, (r.set a).2) := by
  have h1 : (affRansacArgs s a).matchesOk = a.matchesOk := rfl
  have h2 : (affRansacArgs s a).utilOk = a.utilOk := rfl
  have h3 : (affRansacArgs s a).errorOk = a.errorOk := by
    unfold RansacArgs.errorOk affRansacArgs
    cases a.minFitError with
    | none => rfl
    | some e => simp only [Option.map_some, ge_iff_le, mul_nonneg_iff_of_pos_left hs]
  have hk : ∀ (f : K → K) (cur : K) (arg : Option K) (d : K),
      keepOr (some (f cur)) (arg.map f) d = f (keepOr (some cur) arg d) := by
    intro f cur arg d
    cases arg <;> rfl
  have e1 := hk (fun v => s * v) r.tol a.tol 5
  have e2 := hk (fun v => s * v) r.minFitError a.minFitError (1 / 10000)
  unfold RansacSet.set
  rw [h1, h2, h3]
  simp only [affRansacSet, affRansacArgs] at *
  rw [e1, e2]
  split
  · split
    · split <;> rfl
    · rfl
  · rfl

theorem setKnown_aff (c : Cal K) (p v : List (PyFloat K)) :
    (affCal s t c).setKnown p (v.map (mapFin (aff s t))) =
      (affCal s t (c.setKnown p v).1, (c.setKnown p v).2) := by
  unfold Cal.setKnown
  have h : (v.map (mapFin (aff s t))).all (fun v => decide (v ≠ .nan)) = v.all (fun v => decide (v ≠ .nan)) := by
    rw [List.all_map]
    congr 1
    funext x
    cases x <;> simp [mapFin]
  rw [List.length_map, h]
  split
  · split
    · split <;> rfl
    · rfl
  · rfl

theorem removeLoop_map {α β : Type _} (f : α → β) (p : α → Bool) (q : β → Bool) (h : ∀ x, q (f x) = p x) :
    ∀ (n : Nat) (l : List α) (i : Nat), removeLoop q n (l.map f) i = (removeLoop p n l i).map f := by
  intro n
  induction n with
  | zero => intro l i; rfl
  | succ n ih =>
    intro l i
    unfold removeLoop
    rw [List.getElem?_map]
    cases l[i]? with
    | none => rfl
    | some a =>
      simp only [Option.map_some, h]
      split
      · rw [← ih, List.eraseIdx_map]
      · exact ih l (i + 1)

theorem removeRange_aff (a : Atlas K) (v tol : K) :
    (affAtlas s t a).removeRange (aff s t v) (s * tol) = affAtlas s t (a.removeRange v tol) := by
  unfold Atlas.removeRange affAtlas
  dsimp only
  rw [List.length_map, removeLoop_map hs (affAtlasLine s t) (fun l => decide (|l.wl - v| < tol))]
  intro x
  have := aff_dist (t := t) hs x.wl v
  simp only [affAtlasLine, this, scale_lt hs]

/-- A configuration call and the same call on the new scale. -/
theorem step_aff (E : CalEnv K) (w : World K) (op : SetOp K) (hm : Movable op)
    (hp : ∀ pts, (w.step E op).1.cal.ht.points = some (.array pts) → SpreadPoints s pts) :
    (affWorld s t w).step { E with emptyAtlas := affAtlas s t E.emptyAtlas } (affOp s t op) =
      (affWorld s t (w.step E op).1, (w.step E op).2) := by
  cases op with
  | setCalibrator n p l => rfl
  | useMatplotlib => rfl
  | usePlotly => rfl
  | setHough a => exact setHough_aff hs w a
  | setRansac a =>
    simp only [World.step, affOp, World.setRansac]
    rw [show (affWorld s t w).cal.ransac = affRansacSet s w.cal.ransac from rfl, setRansac_aff hs]
    rfl
  | setAtlas i tol b => exact setAtlas_aff hs w i tol b
  | addAtlas a tol b => exact hm.elim
  | loadHough d f t => exact hm.elim
  | clearAtlas =>
    simp only [World.step, affOp, World.clearAtlas, show (affWorld s t w).cal.atlas = w.cal.atlas from rfl]
    cases w.cal.atlas with
    | none => rfl
    | some i =>
      dsimp only
      rw [modifyAtlas_aff hs w i Atlas.clear Atlas.clear (fun x => rfl)]
  | removeRange v tol =>
    simp only [World.step, affOp, World.removeRange, show (affWorld s t w).cal.atlas = w.cal.atlas from rfl]
    cases w.cal.atlas with
    | none => rfl
    | some i =>
      dsimp only
      rw [modifyAtlas_aff hs w i (fun a => a.removeRange v tol) _ (fun x => removeRange_aff hs x v tol)]
  | editAtlas i f =>
    simp only [World.step, affOp]
    rw [modifyAtlas_aff hs w i f _ (fun x => by rw [unaff_affAtlas hs])]
  | doHough b =>
    simp only [World.step, affOp] at hp ⊢
    rw [show (affWorld s t w).cal = affCal s t w.cal from rfl, doHough_aff hs w.cal _ _ b hp]
    rfl
  | setKnown p v =>
    simp only [World.step, affOp]
    rw [show (affWorld s t w).cal = affCal s t w.cal from rfl, setKnown_aff hs]
    rfl
  | addUserAtlas f tol b =>
    simp only [World.step, affOp, World.addUserAtlas]
    have he : World.ensureAtlas (affAtlas s t E.emptyAtlas) (affWorld s t w) =
        affWorld s t (World.ensureAtlas E.emptyAtlas w) := by
      unfold World.ensureAtlas
      rw [show (affWorld s t w).cal.atlas = w.cal.atlas from rfl]
      cases w.cal.atlas with
      | none => simp [affWorld, affCal]
      | some i => rfl
    rw [he]
    generalize World.ensureAtlas E.emptyAtlas w = w0
    rw [show (affWorld s t w0).cal.atlas = w0.cal.atlas from rfl,
      show (affWorld s t w0).atlases = w0.atlases.map (affAtlas s t) from rfl]
    cases w0.cal.atlas with
    | none => rfl
    | some i =>
      dsimp only
      rw [List.getElem?_map]
      cases w0.atlases[i]? with
      | none => rfl
      | some x =>
        simp only [Option.map_some, unaff_affAtlas hs]
        rw [modifyAtlas_aff hs w0 i (fun _ => (f x).1) _ (fun _ => rfl)]
        cases (f x).2 with
        | error e => rfl
        | ok _ => exact setAtlas_aff hs _ i tol b

end

end Rascal
