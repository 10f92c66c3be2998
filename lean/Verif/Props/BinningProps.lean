import Verif.Proofs.PixelSteps
import Verif.Props.UnitProps
import Verif.Props.LeastSquaresProps

/-! Calibration of a binned or oversampled spectrum: all pixels multiplied by one factor (C202). -/

set_option linter.unusedSectionVars false

namespace Rascal

open Spec

section
variable {K : Type _} [Field K] [LinearOrder K] [IsStrictOrderedRing K] [FloorRing K]

/-- Two fits agree up to the pixel scale: neither ends, or both raise the same exception, or both return; then the
new solution gives at `s * x` the wavelength that the old one gives at `x`, the same peaks, on the new scale, are
matched to the same lines, and errors, residuals and utilisations are the same
(src/rascal/calibrator.py:1552-1715). -/
def Spec.SameBinnedFit (k : Kernels K) (s : K) (old new : CallRes (FitReport K)) : Prop :=
  (old = .running ∧ new = .running) ∨ (∃ e, old = .done (.error e) ∧ new = .done (.error e)) ∨
  ∃ r r', old = .done (.ok r) ∧ new = .done (.ok r') ∧
    (∀ x, k.polyval r'.coeffs (s * x) = k.polyval r.coeffs x) ∧
    r'.matchedPeaks = r.matchedPeaks.map (fun v => s * v) ∧ r'.matchedAtlas = r.matchedAtlas ∧
    r'.rms = r.rms ∧ r'.residual = r.residual ∧ r'.peakUtil = r.peakUtil ∧ r'.atlasUtil = r.atlasUtil

theorem sameBinned_of_pix {k : Kernels K} {s : K} (hk : PixelKernels k s) (o : CallRes (FitReport K)) :
    SameBinnedFit k s o (pixOutcome s o) := by
  cases o with
  | running => exact Or.inl ⟨rfl, rfl⟩
  | done r =>
    cases r with
    | error e => exact Or.inr (Or.inl ⟨e, rfl, rfl⟩)
    | ok r =>
      exact Or.inr (Or.inr ⟨r, pixReport s r, rfl, rfl, fun x => hk.polyval r.coeffs x, rfl, rfl, rfl, rfl, rfl, rfl⟩)

/-- C202 (state): a history of calls with all pixels multiplied by `s` leaves the state on the new pixel scale:
peaks, pixel list, pairs, known pixels and the last matches are multiplied, slopes and coefficients are divided, and
wavelengths, tolerances and atlases are the same.  Missing: a transform from a file, and a transform whose lines all
have one slope. -/
theorem C202_history_partial {s : K} (hs : 0 < s) (E : CalEnv K)
    (hi : ∀ l : List K, E.interp (l.map (fun v => s * v)) = E.interp l) (ha : ScaleFreeSort s E.argsortK)
    (ops : List (SetOp K)) (w : World K) (hm : ∀ op ∈ ops, Rescalable op) (hp : SlopesHistory E w ops) :
    (pixWorld s w).steps E (ops.map (pixOp s)) = pixWorld s (w.steps E ops) :=
  steps_pix hs E hi ha ops w hm hp

/-- C202: a calibrator made from the peaks of a binned or oversampled spectrum, with its pixels, gives the same
wavelength at the same place: the same lines matched to the same peaks, the same errors and utilisations, or the same
exception.  Missing: a transform from a file, a transform whose lines all have one slope, a `hough_weight` other than
0 (`C202_refuted`), samples that do not determine the polynomial, and solutions whose rise over steps of one pixel
depends on the scale (`C202_monotone_refuted`). -/
theorem C202_calibration_partial {s : K} (hs : 0 < s) (E : CalEnv K)
    (hi : ∀ l : List K, E.interp (l.map (fun v => s * v)) = E.interp l) (hE : ScaleFreeSort s E.argsortK)
    (F : FitEnv K) (hF : ScaleFreeSort s F.argsortK)
    {interp : List K → PyRes Unit} {peaks : List K} {arr : Bool} {sp sp' : Option (List K)} {c c' : Cal K}
    (hc : Cal.new interp peaks arr sp = .ok c) (hc' : Cal.new interp (peaks.map (fun v => s * v)) arr sp' = .ok c')
    (A : List (Atlas K)) (n : K) (pl : List K) (hpl : pl ≠ []) (lib : Option PlotLib) (x : HoughArgs K)
    (ops : List (SetOp K)) (hm : ∀ op ∈ ops, Rescalable op) (a : FitArgs K) (rnd : FitRandom K)
    (hk : PixelKernels (F.kern a.fitType) s) (h1 : 1 ≤ a.degree) (hb : a.brute = false) (h2 : a.degree ≤ a.fitDeg)
    (w : World K) (hw : w = World.steps E ⟨A, c⟩ ([.setCalibrator (some n) (some pl) lib, .setHough x] ++ ops))
    (hsp : SlopesHistory E (World.steps E ⟨A, c⟩ [.setCalibrator (some n) (some pl) lib, .setHough x]) ops)
    (hp : ∀ pts, (w.fit F a rnd).1.cal.ht.points = some (.array pts) → SpreadSlopes pts)
    (hmon : SameMonotone (F.kern a.fitType) s a.degree (w.cal.peaks ++ w.cal.pairList.map Prod.fst))
    (hd : NoWeight w.cal) :
    SameBinnedFit (F.kern a.fitType) s (w.fit F a rnd).2
      ((World.steps E ⟨A, c'⟩
        ((.setCalibrator (some n) (some pl) lib :: .setHough x :: ops : List (SetOp K)).map (pixOp s))).fit F
          (pixArgs s a) rnd).2 := by
  have e1 : World.steps E ⟨A, c'⟩
      ((.setCalibrator (some n) (some pl) lib :: .setHough x :: ops : List (SetOp K)).map (pixOp s)) =
        pixWorld s w := by
    have g1 := fresh_pix hs E hi hc hc' A n pl hpl lib x
    have g2 := steps_pix hs E hi hE ops _ hm hsp
    rw [← g1] at g2
    rw [hw]
    unfold World.steps at g2 ⊢
    rw [List.foldl_append, ← g2]
    rfl
  rw [e1, fit_pix hs F hF w a rnd hk hmon h1 hb h2 hp hd]
  exact sameBinned_of_pix hk _

/-- Straight lines have two coefficients (src/rascal/calibrator.py:575, 593). -/
structure Spec.TwoCoeffLines (k : Kernels K) : Prop where
  polyfit : ∀ xs ys co, k.polyfit xs ys 1 = .ok co → ∃ a b, co = [a, b]
  polyval : ∀ a b x, k.polyval [a, b] x = a + b * x

/-- Any two different pixels are far enough apart for the monotonicity check to see two points
(src/rascal/calibrator.py:585-590). -/
def Spec.Apart (d : K) (pixels : List K) : Prop := ∀ p ∈ pixels, ∀ q ∈ pixels, p < q → d < q - p

/-- On two or more points a straight line passes the check exactly if it rises. -/
theorem increasing_line {k : Kernels K} (hk : TwoCoeffLines k) (l : List K) (a b : K)
    (hl : 5 / 7 < l.getLastD 0 - l.headD 0) :
    increasing ((monotoneGrid l).map (k.polyval [a, b])) = decide (0 < b) := by
  rw [Bool.eq_iff_iff, decide_eq_true_iff]
  have hlen : 1 < (monotoneGrid l).length := by
    unfold monotoneGrid
    rw [mem_range_arange]
    push_cast
    linarith
  have hget : ∀ (i : Nat) (h : i < (monotoneGrid l).length), (monotoneGrid l)[i] =
      l.headD 0 - (l.getLastD 0 - l.headD 0) * (2 / 10) + (i : K) := by
    intro i h
    exact arangeFrom_getElem _ _ i h
  rw [increasing_iff]
  constructor
  · intro h
    have := h 0 (by simpa using hlen)
    rw [List.getElem_map, List.getElem_map, hget, hget, hk.polyval, hk.polyval] at this
    push_cast at this
    linarith
  · intro h i hi
    rw [List.getElem_map, List.getElem_map, hget, hget, hk.polyval, hk.polyval]
    push_cast
    linarith

/-- For straight lines the check decides alike on both scales if no two peaks are within 5/7 of a pixel. -/
theorem sameMonotone_lines {k : Kernels K} (hk : TwoCoeffLines k) {s : K} (hs : 0 < s) (pixels : List K)
    (h1 : Apart (5 / 7) pixels) (h2 : Apart (5 / 7) (pixels.map (fun v => s * v))) :
    SameMonotone k s 1 pixels := by
  intro l hl hlen hmem xs ys co hco
  obtain ⟨a, b, rfl⟩ := hk.polyfit xs ys co hco
  match l, hl, hlen, hmem with
  | p :: q :: l, hl, _, hmem =>
    have hlast : (p :: q :: l).getLastD 0 ∈ p :: q :: l := by
      rw [List.getLastD_eq_getLast?, List.getLast?_eq_some_getLast (by simp)]
      exact List.getLast_mem (by simp)
    have hlt : p < (p :: q :: l).getLastD 0 := by
      have hh : (p :: q :: l).getLastD 0 = (q :: l).getLastD 0 := rfl
      have hin : (p :: q :: l).getLastD 0 ∈ q :: l := by
        rw [hh, List.getLastD_eq_getLast?, List.getLast?_eq_some_getLast (by simp)]
        exact List.getLast_mem (by simp)
      exact (List.pairwise_cons.1 hl).1 _ hin
    have d1 := h1 p (hmem p (by simp)) _ (hmem _ hlast) hlt
    have d2 := h2 (s * p) (List.mem_map_of_mem (hmem p (by simp))) (s * (p :: q :: l).getLastD 0)
      (List.mem_map_of_mem (hmem _ hlast)) (mul_lt_mul_of_pos_left hlt hs)
    have hmap : ((p :: q :: l).map (fun v => s * v)).getLastD 0 = s * (p :: q :: l).getLastD 0 := by
      rw [List.getLastD_eq_getLast?, List.getLastD_eq_getLast?, List.getLast?_map,
        List.getLast?_eq_some_getLast (by simp)]
      rfl
    rw [increasing_line hk _ a b d1, show pixCoeffs s [a, b] = [a, b / s] from rfl,
      increasing_line hk _ a (b / s) (by rw [hmap]; exact d2)]
    congr 1
    rw [eq_iff_iff]
    exact div_pos_iff_of_pos_right hs

/-- C202 for straight lines: the step of the monotonicity check plays no part if the peaks are more than 5/7 of a
pixel apart on both scales. -/
theorem C202_lines_partial {s : K} (hs : 0 < s) (F : FitEnv K) (hF : ScaleFreeSort s F.argsortK) (w : World K)
    (a : FitArgs K) (rnd : FitRandom K) (hk : PixelKernels (F.kern a.fitType) s)
    (hl : TwoCoeffLines (F.kern a.fitType)) (h1 : a.degree = 1) (hb : a.brute = false) (h2 : 1 ≤ a.fitDeg)
    (hp : ∀ pts, (w.fit F a rnd).1.cal.ht.points = some (.array pts) → SpreadSlopes pts) (hd : NoWeight w.cal)
    (hx : Apart (5 / 7) (w.cal.peaks ++ w.cal.pairList.map Prod.fst))
    (hx' : Apart (5 / 7) ((w.cal.peaks ++ w.cal.pairList.map Prod.fst).map (fun v => s * v))) :
    SameBinnedFit (F.kern a.fitType) s (w.fit F a rnd).2 ((pixWorld s w).fit F (pixArgs s a) rnd).2 := by
  rw [fit_pix hs F hF w a rnd hk (by rw [h1]; exact sameMonotone_lines hl hs _ hx hx') (by omega) hb (by omega) hp hd]
  exact sameBinned_of_pix hk _

/-! ### Least squares meets the contract -/

theorem polyAt_pix {s : K} (hs : s ≠ 0) {n : Nat} (u : Fin (n + 1) → K) (x : K) :
    polyAt (fun i => u i / s ^ (i : Nat)) (s * x) = polyAt u x := by
  unfold polyAt
  apply Finset.sum_congr rfl
  intro i _
  rw [mul_pow, ← mul_assoc, div_mul_cancel₀ _ (pow_ne_zero _ hs)]

theorem dedup_pix {s : K} (hs : s ≠ 0) (ps : List (K × K)) :
    ((ps.map (pixPair s)).map Prod.fst).dedup.length = (ps.map Prod.fst).dedup.length := by
  have h : (ps.map (pixPair s)).map Prod.fst = (ps.map Prod.fst).map (fun v => s * v) := by
    rw [List.map_map, List.map_map]; rfl
  rw [h, List.dedup_map_of_injective (mul_right_injective₀ hs), List.length_map]

theorem lsqVec_pix {s : K} (hs : s ≠ 0) (ps : List (K × K)) (n : Nat)
    (hn : n < (ps.map Prod.fst).dedup.length) :
    lsqVec (ps.map (pixPair s)) n = fun i => lsqVec ps n i / s ^ (i : Nat) := by
  symm
  rw [← lsqVec_unique _ n (by rw [dedup_pix hs]; exact hn)]
  have hN := (lsqVec_unique ps n hn (lsqVec ps n)).2 rfl
  set u := lsqVec ps n
  funext i
  have h := congrFun hN i
  rw [gram_mulVec, List.map_map] at h ⊢
  have e1 : moment (ps.map (pixPair s)) n i = moment ps n i * s ^ (i : Nat) := by
    unfold moment
    rw [List.map_map, ← listSum_mul]
    congr 1
    apply List.map_congr_left
    intro p _
    simp only [Function.comp, pixPair, mul_pow]
    ring
  rw [e1, ← h, ← listSum_mul, List.map_map]
  congr 1
  apply List.map_congr_left
  intro p _
  simp only [Function.comp, pixPair, polyAt_pix hs, mul_pow]
  ring

theorem pixCoeffs_ofFn (s : K) (n : Nat) (v : Fin n → K) :
    pixCoeffs s (List.ofFn v) = List.ofFn (fun i => v i / s ^ (i : Nat)) := by
  induction n with
  | zero => simp [pixCoeffs]
  | succ n ih =>
    rw [List.ofFn_succ, List.ofFn_succ, pixCoeffs, ih, List.map_ofFn]
    congr 1
    · simp
    · congr 1
      funext i
      simp only [Function.comp, Fin.val_succ, pow_succ, div_div]

theorem lsqFit_pix {s : K} (hs : s ≠ 0) (ps : List (K × K)) (n : Nat) :
    lsqFit (ps.map (pixPair s)) n = (lsqFit ps n).map (pixCoeffs s) := by
  unfold lsqFit
  rw [dedup_pix hs]
  split
  · rename_i hn
    simp only [Option.map_some, lsqVec_pix hs ps n hn, pixCoeffs_ofFn]
  · rfl

theorem finPoints_pix (s : K) (xs ys : List (PyFloat K)) :
    finPoints (xs.map (mapFin (fun v => s * v))) ys = (finPoints xs ys).map (List.map (pixPair s)) := by
  induction xs generalizing ys with
  | nil => cases ys <;> rfl
  | cons x xs ih =>
    cases ys with
    | nil => cases x <;> rfl
    | cons y ys =>
      cases x <;> cases y <;> try rfl
      simp only [List.map_cons, mapFin, finPoints, ih, Option.map_map]
      rfl

theorem polyval_pix {s : K} (hs : s ≠ 0) (co : List K) (x : K) :
    List.foldr (fun a b => a + s * x * b) 0 (pixCoeffs s co) = List.foldr (fun a b => a + x * b) 0 co := by
  have h : ∀ l : List K, List.foldr (fun a b => a + s * x * b) 0 (l.map (fun v => v / s)) * s =
      List.foldr (fun a b => a + s * x * b) 0 l := by
    intro l
    induction l with
    | nil => simp
    | cons a l ih =>
      simp only [List.map_cons, List.foldr_cons]
      rw [add_mul, mul_assoc, ih, div_mul_cancel₀ _ hs]
  induction co with
  | nil => rfl
  | cons c co ih =>
    simp only [pixCoeffs, List.foldr_cons]
    rw [← ih, ← h (pixCoeffs s co)]
    ring

/-- Least squares of any degree meets the contract of C202. -/
theorem lsqKern_pix (root : K → K) (spl : List K → List K → List (List Nat) → PyRes (K → K → K)) {s : K} (hs : s ≠ 0)
    (hd : ∀ bx bY h, spl (bx.map (fun v => v / s)) bY h = (spl bx bY h).map (fun f x y => f (s * x) y)) :
    PixelKernels (lsqKern root spl) s where
  polyfit := by
    intro xs ys n _
    unfold lsqKern
    dsimp only
    rw [finPoints_pix]
    cases finPoints xs ys with
    | none => rfl
    | some ps =>
      simp only [Option.map_some, lsqFit_pix hs]
      cases lsqFit ps n <;> rfl
  robust := by
    intro xs ys n _ _
    unfold lsqKern
    dsimp only
    have : (xs.map (fun v => s * v)).map PyFloat.fin = (xs.map PyFloat.fin).map (mapFin (fun v => s * v)) := by
      rw [List.map_map, List.map_map]; rfl
    rw [this, finPoints_pix]
    cases finPoints (xs.map .fin) (ys.map .fin) with
    | none => rfl
    | some ps =>
      simp only [Option.map_some, lsqFit_pix hs]
      cases lsqFit ps n <;> rfl
  polyval := fun co x => polyval_pix hs co x
  spline := hd

theorem lsqKern_lines (root : K → K) (spl : List K → List K → List (List Nat) → PyRes (K → K → K)) :
    TwoCoeffLines (lsqKern root spl) where
  polyfit := by
    intro xs ys co h
    unfold lsqKern lsqFit at h
    dsimp only at h
    cases hp : finPoints xs ys with
    | none => rw [hp] at h; cases h
    | some ps =>
      rw [hp] at h
      dsimp only at h
      by_cases hn : 1 < (ps.map Prod.fst).dedup.length
      · rw [if_pos hn] at h
        cases h
        exact ⟨_, _, by rw [List.ofFn_succ, List.ofFn_succ, List.ofFn_zero]⟩
      · rw [if_neg hn] at h; cases h
  polyval := by
    intro a b x
    show List.foldr (fun a b => a + x * b) 0 [a, b] = a + b * x
    simp only [List.foldr_cons, List.foldr_nil]
    ring

/-- The transform after a fit does not depend on the fitting routines. -/
theorem fit_ht_kern (F : FitEnv K) (k : FitType → Kernels K) (w : World K) (a : FitArgs K) (rnd : FitRandom K) :
    (w.fit { F with kern := k } a rnd).1.cal.ht = (w.fit F a rnd).1.cal.ht := by
  unfold World.fit
  dsimp only
  split
  · rfl
  · cases w.atlasLines with
    | error e => rfl
    | ok lines =>
      dsimp only
      unfold Cal.fitWith
      dsimp only
      have he : ∀ c : Cal K, c.ensureHough { F with kern := k } = c.ensureHough F := fun _ => rfl
      rw [he]
      generalize Cal.ensureHough F _ = q
      obtain ⟨c, e⟩ := q
      cases e with
      | error e => rfl
      | ok _ =>
        dsimp only
        rw [fitSearch_ht, fitSearch_ht]

/-- C202 with least squares for both fits: no contract is left open. -/
theorem C202_leastSquares_partial {s : K} (hs : 0 < s) (F : FitEnv K) (hF : ScaleFreeSort s F.argsortK)
    (root : K → K) (hk : ∀ f, F.kern f = lsqKern root (fun _ _ _ => .ok (fun _ _ => 0))) (w : World K)
    (a : FitArgs K) (rnd : FitRandom K) (h1 : a.degree = 1) (hb : a.brute = false) (h2 : 1 ≤ a.fitDeg)
    (hp : ∀ pts, (w.fit F a rnd).1.cal.ht.points = some (.array pts) → SpreadSlopes pts) (hd : NoWeight w.cal)
    (hx : Apart (5 / 7) (w.cal.peaks ++ w.cal.pairList.map Prod.fst))
    (hx' : Apart (5 / 7) ((w.cal.peaks ++ w.cal.pairList.map Prod.fst).map (fun v => s * v))) :
    SameBinnedFit (F.kern a.fitType) s (w.fit F a rnd).2 ((pixWorld s w).fit F (pixArgs s a) rnd).2 :=
  C202_lines_partial hs F hF w a rnd (by rw [hk]; exact lsqKern_pix _ _ hs.ne' (fun _ _ _ => rfl))
    (by rw [hk]; exact lsqKern_lines _ _) h1 hb h2 hp hd hx hx'

end

/-! ### Refutations and concrete cases -/

theorem Toy.finites_pix (s : ℚ) (l : List (PyFloat ℚ)) :
    Toy.finites (l.map (mapFin (fun v => s * v))) = (Toy.finites l).map (fun v => s * v) := by
  induction l with
  | nil => rfl
  | cons a l ih =>
    unfold Toy.finites at ih ⊢
    cases a with
    | fin v => simp [mapFin, PyFloat.toFinite, ih]
    | posInf => exact ih
    | negInf => exact ih
    | nan => exact ih

theorem Toy.line_pix {s : ℚ} (hs : s ≠ 0) (xs ys : List ℚ) :
    Toy.line (xs.map (fun v => s * v)) ys = (Toy.line xs ys).map (pixCoeffs s) := by
  have e1 : ∀ l : List ℚ, (l.map (fun v => s * v)).sum = s * l.sum := by
    intro l
    induction l with
    | nil => simp
    | cons a l ih => simp only [List.map_cons, List.sum_cons, ih]; ring
  have e2 : ∀ l : List ℚ, ((l.map (fun v => s * v)).map (fun x => x * x)).sum = s ^ 2 * (l.map (fun x => x * x)).sum := by
    intro l
    induction l with
    | nil => simp
    | cons a l ih => simp only [List.map_cons, List.sum_cons, ih]; ring
  have e3 : ∀ l m : List ℚ, (List.zipWith (fun x y => x * y) (l.map (fun v => s * v)) m).sum =
      s * (List.zipWith (fun x y => x * y) l m).sum := by
    intro l
    induction l with
    | nil => simp
    | cons a l ih =>
      intro m
      cases m with
      | nil => simp
      | cons b m => simp only [List.map_cons, List.zipWith_cons_cons, List.sum_cons, ih]; ring
  unfold Toy.line
  dsimp only
  rw [e1, e2, e3, List.length_map]
  generalize (xs.map (fun x => x * x)).sum = sxx
  generalize (List.zipWith (fun x y => x * y) xs ys).sum = sxy
  generalize ys.sum = sy
  generalize xs.sum = sx
  generalize (xs.length : ℚ) = n
  have hd : n * (s ^ 2 * sxx) - s * sx * (s * sx) = s ^ 2 * (n * sxx - sx * sx) := by ring
  rw [hd]
  by_cases h0 : n * sxx - sx * sx = 0
  · simp [h0, Except.map]
  · have h1 : s ^ 2 * (n * sxx - sx * sx) ≠ 0 := mul_ne_zero (pow_ne_zero 2 hs) h0
    simp only [h0, h1, if_false, Except.map, pixCoeffs, List.map_cons, List.map_nil]
    congr 2
    · field_simp
    · congr 1
      field_simp

/-- The toy routines follow a change of the pixel scale. -/
theorem Toy.scaleKern_pix (root : ℚ → ℚ) (dens : List ℚ → ℚ → ℚ) {s : ℚ} (hs : s ≠ 0) :
    PixelKernels (Toy.scaleKern root dens) s where
  polyfit := by
    intro xs ys n _
    show (if n = 1 ∧ (Toy.finites (xs.map (mapFin (fun v => s * v)))).length = (Toy.finites ys).length then _ else _) = _
    rw [Toy.finites_pix, List.length_map]
    unfold Toy.scaleKern
    dsimp only
    split
    · exact Toy.line_pix hs _ _
    · rfl
  robust := by
    intro xs ys n _ _
    unfold Toy.scaleKern
    dsimp only
    rw [List.length_map]
    split
    · exact Toy.line_pix hs _ _
    · rfl
  polyval := by
    intro co x
    have h : ∀ (l : List ℚ) (y : ℚ), List.foldr (fun a b => a + s * x * b) 0 (l.map (fun v => v / s)) * s =
        List.foldr (fun a b => a + s * x * b) 0 l := by
      intro l y
      induction l with
      | nil => simp
      | cons a l ih =>
        simp only [List.map_cons, List.foldr_cons]
        rw [add_mul, mul_assoc, ih, div_mul_cancel₀ _ hs]
    show List.foldr (fun a b => a + s * x * b) 0 (pixCoeffs s co) = List.foldr (fun a b => a + x * b) 0 co
    induction co with
    | nil => rfl
    | cons c co ih =>
      simp only [pixCoeffs, List.foldr_cons]
      rw [← ih, ← h (pixCoeffs s co) x]
      ring
  spline := by
    intro bx bY h
    rfl

theorem Toy.scaleKern_lines (root : ℚ → ℚ) (dens : List ℚ → ℚ → ℚ) : TwoCoeffLines (Toy.scaleKern root dens) where
  polyfit := by
    intro xs ys co h
    unfold Toy.scaleKern Toy.line at h
    dsimp only at h
    split at h
    · split at h
      · cases h
      · cases h
        exact ⟨_, _, rfl⟩
    · cases h
  polyval := by
    intro a b x
    show List.foldr (fun a b => a + x * b) 0 [a, b] = a + b * x
    simp only [List.foldr_cons, List.foldr_nil]
    ring

theorem Toy.stable_scaleFree {s : ℚ} (hs : 0 < s) : ScaleFreeSort s stableArgsort := by
  intro l
  unfold stableArgsort
  have hz : (l.map (fun v => s * v)).zipIdx = l.zipIdx.map (Prod.map (fun v => s * v) id) := by
    rw [List.zipIdx_map]
  rw [hz, ← List.map_insertionSort (r := fun a b : ℚ × Nat => a.1 ≤ b.1) (s := fun a b : ℚ × Nat => a.1 ≤ b.1)
    (Prod.map (fun v => s * v) id) l.zipIdx (by
      intro a _ b _
      exact (mul_le_mul_iff_right₀ hs).symm), List.map_map]
  rfl

theorem sameBinned_same {K : Type _} [Field K] [LinearOrder K] {k : Kernels K} {s : K}
    {old new : CallRes (FitReport K)} (h : SameBinnedFit k s old new) :
    (∃ r r', old = .done (.ok r) ∧ new = .done (.ok r') ∧ r'.matchedPeaks = r.matchedPeaks.map (fun v => s * v)) ∨
      ((∀ r, old ≠ .done (.ok r)) ∧ ∀ r, new ≠ .done (.ok r)) := by
  rcases h with ⟨h1, h2⟩ | ⟨e, h1, h2⟩ | ⟨r, r', h1, h2, -, h3, -⟩
  · exact Or.inr ⟨(by rintro r hr; rw [h1] at hr; cases hr), (by rintro r hr; rw [h2] at hr; cases hr)⟩
  · exact Or.inr ⟨(by rintro r hr; rw [h1] at hr; cases hr), (by rintro r hr; rw [h2] at hr; cases hr)⟩
  · exact Or.inl ⟨r, r', h1, h2, h3⟩

/-- The expected behaviour: pixels that are multiplied by a factor leave the wavelengths where they are. -/
def C202_Statement : Prop :=
  ∀ (F : FitEnv ℚ) (w : World ℚ) (a : FitArgs ℚ) (rnd : FitRandom ℚ) (s : ℚ), 0 < s → IsArgsort F.argsortK →
    ScaleFreeSort s F.argsortK → PixelKernels (F.kern a.fitType) s → 1 ≤ a.degree → a.brute = false →
    a.degree ≤ a.fitDeg →
    (∀ pts, (w.fit F a rnd).1.cal.ht.points = some (.array pts) → SpreadSlopes pts) →
    SameMonotone (F.kern a.fitType) s a.degree (w.cal.peaks ++ w.cal.pairList.map Prod.fst) →
    SameBinnedFit (F.kern a.fitType) s (w.fit F a rnd).2 ((pixWorld s w).fit F (pixArgs s a) rnd).2

/-- Two different slopes among the points. -/
def Toy.twoSlopes (p : Option (PointStore ℚ)) : Bool :=
  match p with
  | some (.array pts) => pts.any (fun p => pts.any (fun q => decide (p.1 ≠ q.1)))
  | _ => true

theorem Toy.twoSlopes_spread {p : Option (PointStore ℚ)} (h : Toy.twoSlopes p = true) :
    ∀ pts, p = some (.array pts) → SpreadSlopes pts := by
  rintro pts rfl
  unfold Toy.twoSlopes at h
  simp only [List.any_eq_true, decide_eq_true_eq] at h
  obtain ⟨x, hx, y, hy, hn⟩ := h
  exact ⟨x, hx, y, hy, hn⟩

/-- Distances between pixels. -/
def Toy.apart (l : List ℚ) : Bool := l.all (fun p => l.all (fun q => decide (p < q → 5 / 7 < q - p)))

theorem Toy.apart_spec {l : List ℚ} (h : Toy.apart l = true) : Apart (5 / 7) l := by
  unfold Toy.apart at h
  simp only [List.all_eq_true, decide_eq_true_eq] at h
  exact h

/-- A density that is 1 from a tenth of the first bin of the second axis on. -/
def Toy.aboveTen (bY : List ℚ) (y : ℚ) : ℚ := Toy.above bY (10 * y)

set_option synthInstance.maxSize 2000 in
set_option synthInstance.maxHeartbeats 400000 in
/-- The Hough density is read with the slope on the intercept axis (`C68_refuted`), so the weight of a trial depends
on the pixel scale: three peaks are matched on one scale, four on another. -/
theorem C202_refuted : ¬ C202_Statement := by
  intro h
  have hc : (Toy.fourPeaks [4500, 5900, 7440, 8847]).toOption.map (fun w =>
      ((Toy.report (w.fit (Toy.scaleEnv Toy.root Toy.aboveTen) (Toy.fourArgs 2) Toy.twoPasses)).map
          FitReport.matchedPeaks,
       (Toy.report ((pixWorld (10 / 19) w).fit (Toy.scaleEnv Toy.root Toy.aboveTen)
          (pixArgs (10 / 19) (Toy.fourArgs 2)) Toy.twoPasses)).map FitReport.matchedPeaks,
       Toy.twoSlopes (w.fit (Toy.scaleEnv Toy.root Toy.aboveTen) (Toy.fourArgs 2) Toy.twoPasses).1.cal.ht.points,
       Toy.apart (w.cal.peaks ++ w.cal.pairList.map Prod.fst),
       Toy.apart ((w.cal.peaks ++ w.cal.pairList.map Prod.fst).map (fun v => 10 / 19 * v)))) =
      some (some [10, 20, 31], some [100 / 19, 200 / 19, 310 / 19, 410 / 19], true, true, true) := by decide +kernel
  cases hw : Toy.fourPeaks [4500, 5900, 7440, 8847] with
  | error e => rw [hw] at hc; cases hc
  | ok w =>
    rw [hw] at hc
    simp only [Except.toOption, Option.map_some, Option.some.injEq, Prod.mk.injEq] at hc
    obtain ⟨h1, h2, h3, h4, h5⟩ := hc
    rw [Option.map_eq_some_iff] at h1 h2
    obtain ⟨r, hr, hm⟩ := h1
    obtain ⟨r', hr', hm'⟩ := h2
    have e := sameBinned_same (h (Toy.scaleEnv Toy.root Toy.aboveTen) w (Toy.fourArgs 2) Toy.twoPasses (10 / 19)
      (by norm_num) Toy.env_argsort (Toy.stable_scaleFree (by norm_num)) (Toy.scaleKern_pix _ _ (by norm_num))
      (by decide) rfl (by decide) (Toy.twoSlopes_spread h3)
      (sameMonotone_lines (Toy.scaleKern_lines _ _) (by norm_num) _ (Toy.apart_spec h4) (Toy.apart_spec h5)))
    rcases e with ⟨q, q', e1, e2, e3⟩ | ⟨e1, -⟩
    · rw [Toy.report_some _ _ hr] at e1
      rw [Toy.report_some _ _ hr'] at e2
      cases e1
      cases e2
      rw [hm, hm'] at e3
      exact absurd (congrArg List.length e3) (by decide)
    · exact e1 r (Toy.report_some _ _ hr)

/-- The expected behaviour without a weight for the density, for any distance between the peaks. -/
def C202_unweighted_Statement : Prop :=
  ∀ (F : FitEnv ℚ) (w : World ℚ) (a : FitArgs ℚ) (rnd : FitRandom ℚ) (s : ℚ), 0 < s → IsArgsort F.argsortK →
    ScaleFreeSort s F.argsortK → PixelKernels (F.kern a.fitType) s → 1 ≤ a.degree → a.brute = false →
    a.degree ≤ a.fitDeg →
    (∀ pts, (w.fit F a rnd).1.cal.ht.points = some (.array pts) → SpreadSlopes pts) → NoWeight w.cal →
    SameBinnedFit (F.kern a.fitType) s (w.fit F a rnd).2 ((pixWorld s w).fit F (pixArgs s a) rnd).2

/-- Two lines that are close to each other. -/
def Toy.nearLines202 : Atlas ℚ :=
  ⟨[⟨3300, "Xe", 1, none⟩, ⟨3400, "Xe", 1, none⟩, ⟨20000, "Xe", 1, none⟩, ⟨21000, "Xe", 1, none⟩,
    ⟨22000, "Xe", 1, none⟩], none, none, 0⟩

/-- A calibrator with these lines. -/
def Toy.nearWorld202 : World ℚ :=
  World.steps Toy.calEnv ⟨[Toy.nearLines202], Toy.newCal⟩
    [.setHough { Toy.fullHough with numSlopes := some 5, maxW := some 4000 }, .setRansac Toy.fullRansac,
     .setAtlas 0 10 false]

set_option synthInstance.maxSize 2000 in
set_option synthInstance.maxHeartbeats 400000 in
/-- The monotonicity check looks at the solution in steps of one pixel.  For peaks less than 5/7 of a pixel apart it
looks at one point only, and a falling solution passes: a fit that finds nothing on one scale returns a solution in
which the wavelength falls on the other. -/
theorem C202_monotone_refuted : ¬ C202_unweighted_Statement := by
  intro h
  have hc : ((Toy.report (Toy.nearWorld202.fit (Toy.scaleEnv Toy.root Toy.above) { Toy.args with candTol := 50 }
        ⟨fun _ => 0, List.replicate 6 ⟨[0, 0], [0, 0]⟩⟩)).map FitReport.matchedPeaks,
      (Toy.report ((pixWorld (1 / 20) Toy.nearWorld202).fit (Toy.scaleEnv Toy.root Toy.above)
        (pixArgs (1 / 20) { Toy.args with candTol := 50 }) ⟨fun _ => 0, List.replicate 6 ⟨[0, 0], [0, 0]⟩⟩)).map
        FitReport.coeffs,
      Toy.twoSlopes (Toy.nearWorld202.fit (Toy.scaleEnv Toy.root Toy.above) { Toy.args with candTol := 50 }
        ⟨fun _ => 0, List.replicate 6 ⟨[0, 0], [0, 0]⟩⟩).1.cal.ht.points,
      Toy.nearWorld202.cal.ransac.houghWeight) = (none, some [3500, -200], true, .fin 0) := by decide +kernel
  simp only [Prod.mk.injEq] at hc
  obtain ⟨h1, h2, h3, h4⟩ := hc
  rw [Option.map_eq_some_iff] at h2
  obtain ⟨r, hr, hm⟩ := h2
  have e := sameBinned_same (h (Toy.scaleEnv Toy.root Toy.above) Toy.nearWorld202 { Toy.args with candTol := 50 }
    ⟨fun _ => 0, List.replicate 6 ⟨[0, 0], [0, 0]⟩⟩ (1 / 20)
    (by norm_num) Toy.env_argsort (Toy.stable_scaleFree (by norm_num)) (Toy.scaleKern_pix _ _ (by norm_num))
    (by decide) rfl (by decide) (Toy.twoSlopes_spread h3) (by
      intro w hw; rw [h4] at hw; cases hw; rfl))
  rcases e with ⟨q, q', e1, e2, e3⟩ | ⟨-, e1⟩
  · unfold Toy.report at h1
    rw [e1] at h1
    cases h1
  · exact e1 r (Toy.report_some _ _ hr)

/-- A case for `C202_history_partial`: a transform and a known pair, with pixels binned by two. -/
example := C202_history_partial (s := (1 / 2 : ℚ)) (by norm_num) Toy.calEnv (fun _ => rfl)
  (Toy.stable_scaleFree (by norm_num)) Toy.unitOps Toy.ready (by simp [Rescalable, Toy.unitOps]) (by
    intro n
    obtain ⟨h0, h1, h2, h3⟩ := Toy.unitOps_points
    apply Toy.twoSlopes_spread
    rcases n with _ | _ | _ | n
    · rw [h0]; rfl
    · rw [h1]; rfl
    · rw [h2]; decide +kernel
    · rw [List.take_of_length_le (by simp [Toy.unitOps]), h3]; decide +kernel)

/-- The pixels of the case. -/
def Toy.binPixels : List ℚ := (List.range 22).map (fun i : Nat => (i : ℚ))

/-- The calibrator after the calls. -/
def Toy.binned : World ℚ :=
  World.steps Toy.calEnv ⟨[Toy.atlas], Toy.newCal⟩ ([.setCalibrator (some 22) (some Toy.binPixels) none,
    .setHough { Toy.fullHough with numSlopes := some 5 }] ++ [.setRansac Toy.fullRansac, .setAtlas 0 10 false])

/-- What the case needs. -/
theorem Toy.binned_facts :
    (Toy.report (Toy.binned.fit (Toy.scaleEnv (fun _ => 0) Toy.above) Toy.args Toy.rnd)).map FitReport.matchedPeaks =
      some [10, 20] ∧
    Toy.twoSlopes (Toy.binned.fit (Toy.scaleEnv (fun _ => 0) Toy.above) Toy.args Toy.rnd).1.cal.ht.points = true ∧
    Toy.apart (Toy.binned.cal.peaks ++ Toy.binned.cal.pairList.map Prod.fst) = true ∧
    Toy.apart ((Toy.binned.cal.peaks ++ Toy.binned.cal.pairList.map Prod.fst).map (fun v => 1 / 2 * v)) = true ∧
    Toy.binned.cal.ransac.houghWeight = .fin 0 := by decide +kernel

theorem Toy.binned_history (n : Nat) : Toy.twoSlopes (World.steps Toy.calEnv (World.steps Toy.calEnv ⟨[Toy.atlas], Toy.newCal⟩
    [.setCalibrator (some 22) (some Toy.binPixels) none, .setHough { Toy.fullHough with numSlopes := some 5 }])
    (List.take n [.setRansac Toy.fullRansac, .setAtlas 0 10 false])).cal.ht.points = true := by
  rcases n with _ | _ | n
  · decide +kernel
  · decide +kernel
  · rw [List.take_of_length_le (by simp)]; decide +kernel

/-- A case for `C202_calibration_partial`: two peaks, pixels binned by two; the fit succeeds. -/
example (c' : Cal ℚ) (hc' : Cal.new (fun _ => .ok ()) ([10, 20].map (fun v => 1 / 2 * v)) true none = .ok c') :=
  C202_calibration_partial (s := (1 / 2 : ℚ)) (by norm_num) Toy.calEnv (fun _ => rfl)
    (Toy.stable_scaleFree (by norm_num)) (Toy.scaleEnv (fun _ => 0) Toy.above) (Toy.stable_scaleFree (by norm_num))
    Toy.newCal_eq hc' [Toy.atlas] 22 Toy.binPixels (by decide) none { Toy.fullHough with numSlopes := some 5 }
    [.setRansac Toy.fullRansac, .setAtlas 0 10 false] (by simp [Rescalable]) Toy.args Toy.rnd
    (Toy.scaleKern_pix _ _ (by norm_num)) (by decide) rfl (by decide) Toy.binned rfl
    (fun n => Toy.twoSlopes_spread (Toy.binned_history n)) (Toy.twoSlopes_spread Toy.binned_facts.2.1)
    (sameMonotone_lines (Toy.scaleKern_lines _ _) (by norm_num) _ (Toy.apart_spec Toy.binned_facts.2.2.1)
      (Toy.apart_spec Toy.binned_facts.2.2.2.1))
    (by intro w hw; rw [Toy.binned_facts.2.2.2.2] at hw; cases hw; rfl)

/-- The constructor accepts the binned peaks. -/
example : (Cal.new (fun _ => .ok ()) ([10, 20].map (fun v => 1 / 2 * v)) true none : PyRes (Cal ℚ)).toOption.isSome = true := by
  decide +kernel

/-- A case for `C202_lines_partial`. -/
example := C202_lines_partial (s := (1 / 2 : ℚ)) (by norm_num) (Toy.scaleEnv (fun _ => 0) Toy.above)
  (Toy.stable_scaleFree (by norm_num)) Toy.binned Toy.args Toy.rnd (Toy.scaleKern_pix _ _ (by norm_num))
  (Toy.scaleKern_lines _ _) rfl rfl (by decide) (Toy.twoSlopes_spread Toy.binned_facts.2.1)
  (by intro w hw; rw [Toy.binned_facts.2.2.2.2] at hw; cases hw; rfl) (Toy.apart_spec Toy.binned_facts.2.2.1)
  (Toy.apart_spec Toy.binned_facts.2.2.2.1)

/-- A case for `C202_leastSquares_partial`. -/
example := C202_leastSquares_partial (s := (1 / 2 : ℚ)) (by norm_num)
  { Toy.scaleEnv (fun _ => 0) Toy.above with
    kern := fun _ => lsqKern (fun _ => 0) (fun _ _ _ => .ok (fun _ _ => 0)) }
  (Toy.stable_scaleFree (by norm_num)) (fun _ => 0) (fun _ => rfl) Toy.binned Toy.args Toy.rnd rfl rfl (by decide)
  (by rw [fit_ht_kern]; exact Toy.twoSlopes_spread Toy.binned_facts.2.1)
  (by intro w hw; rw [Toy.binned_facts.2.2.2.2] at hw; cases hw; rfl) (Toy.apart_spec Toy.binned_facts.2.2.1)
  (Toy.apart_spec Toy.binned_facts.2.2.2.1)

end Rascal
