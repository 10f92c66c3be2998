import Verif.Props.DirectionProps
import Verif.Props.BasisProps
import Verif.Props.SearchProps

/-!
Property theorem C207: whether the wavelength increases from one matched peak to the next.
-/

set_option linter.unusedSectionVars false

namespace Rascal

section
variable {K : Type _} [Field K] [LinearOrder K] [IsStrictOrderedRing K] [FloorRing K]

/-- What is fitted with degree `d` are polynomials of degree at most 2, as for `d` 1 and 2 in all three bases. -/
def Spec.AtMostQuadratic (k : Kernels K) (d : Nat) : Prop :=
  ∀ x y t, k.polyfit x y d = .ok t → ∃ c0 c1 c2, ∀ p, k.polyval t p = c0 + c1 * p + c2 * p ^ 2

open Spec

/-- A parabola that increases from sample to sample, over a range that is long enough, increases in its inner part. -/
theorem parabola_increases (c0 c1 c2 p0 p1 : K) (hspan : 15 / 2 ≤ p1 - p0)
    (hg : ∀ i : Nat, p0 - (p1 - p0) / 5 + (i : K) + 1 < p1 + (p1 - p0) / 5 →
      c0 + c1 * (p0 - (p1 - p0) / 5 + (i : K)) + c2 * (p0 - (p1 - p0) / 5 + (i : K)) ^ 2 <
        c0 + c1 * (p0 - (p1 - p0) / 5 + (i : K) + 1) + c2 * (p0 - (p1 - p0) / 5 + (i : K) + 1) ^ 2)
    (p q : K) (hp : p0 ≤ p) (hpq : p < q) (hq : q ≤ p1) :
    c0 + c1 * p + c2 * p ^ 2 < c0 + c1 * q + c2 * q ^ 2 := by
  have hlo := hg 0 (by push_cast; linarith)
  push_cast at hlo
  -- the last step of the grid
  obtain ⟨n, hn1, hn2⟩ : ∃ n : Nat, p0 - (p1 - p0) / 5 + (n : K) + 1 < p1 + (p1 - p0) / 5 ∧
      p1 + (p1 - p0) / 5 ≤ p0 - (p1 - p0) / 5 + (n : K) + 2 := by
    set D := p1 - p0 with hD
    have hpos : (0 : K) < 7 / 5 * D - 1 := by linarith
    have hc : 0 < ⌈7 / 5 * D - 1⌉ := Int.ceil_pos.2 hpos
    refine ⟨(⌈7 / 5 * D - 1⌉ - 1).toNat, ?_, ?_⟩
    · have h1 := Int.ceil_lt_add_one (7 / 5 * D - 1)
      have h2 : (((⌈7 / 5 * D - 1⌉ - 1).toNat : Nat) : K) = (⌈7 / 5 * D - 1⌉ : K) - 1 := by
        have : (((⌈7 / 5 * D - 1⌉ - 1).toNat : Nat) : Int) = ⌈7 / 5 * D - 1⌉ - 1 := Int.toNat_of_nonneg (by omega)
        exact_mod_cast congrArg (Int.cast (R := K)) this
      rw [h2]
      linarith
    · have h1 := Int.le_ceil (7 / 5 * D - 1)
      have h2 : (((⌈7 / 5 * D - 1⌉ - 1).toNat : Nat) : K) = (⌈7 / 5 * D - 1⌉ : K) - 1 := by
        have : (((⌈7 / 5 * D - 1⌉ - 1).toNat : Nat) : Int) = ⌈7 / 5 * D - 1⌉ - 1 := Int.toNat_of_nonneg (by omega)
        exact_mod_cast congrArg (Int.cast (R := K)) this
      rw [h2]
      linarith
  have hhi := hg n hn1
  -- slopes of the first and the last step
  have s1 : 0 < c1 + c2 * (2 * (p0 - (p1 - p0) / 5) + 1) := by nlinarith
  have s2 : 0 < c1 + c2 * (2 * (p0 - (p1 - p0) / 5 + (n : K)) + 1) := by nlinarith
  have hs : 0 < c1 + c2 * (p + q) := by
    rcases le_total 0 c2 with hc | hc
    · have : c2 * (2 * (p0 - (p1 - p0) / 5) + 1) ≤ c2 * (p + q) := mul_le_mul_of_nonneg_left (by linarith) hc
      linarith
    · have : c2 * (2 * (p0 - (p1 - p0) / 5 + (n : K)) + 1) ≤ c2 * (p + q) := mul_le_mul_of_nonpos_left (by linarith) hc
      linarith
  have := mul_pos hs (sub_pos.2 hpq)
  nlinarith

/-- The trial polynomial behind the matches of a fit of degree at most 2. -/
theorem trial_parabola (F : FitEnv K) (ha : IsArgsort F.argsortK) (w : World K) (a : FitArgs K) (rnd : FitRandom K)
    (r : FitReport K) (h : (w.fit F a rnd).2 = .done (.ok r)) (hk : AtMostQuadratic (F.kern a.fitType) a.degree)
    (hspan : ∃ p ∈ r.matchedPeaks, ∃ q ∈ r.matchedPeaks, 15 / 2 ≤ q - p) :
    ∃ (lines : List K) (L : LoopStart K) (g : K → K), w.atlasLines = .ok lines ∧
      (w.given a).enter F lines a rnd.uniform = some L ∧
      (∀ e ∈ r.matchedPeaks.zip r.matchedAtlas, e ∈ L.cfg.x.zip L.cfg.y ∧ |g e.1 - e.2| < w.cal.ransac.tol ∧
        ∀ v, (e.1, v) ∈ L.cfg.x.zip L.cfg.y → |g e.1 - e.2| ≤ |g e.1 - v|) ∧
      ∀ p ∈ L.cfg.x, ∀ q ∈ L.cfg.x, p < q → g p < g q := by
  obtain ⟨lines, L, s, co, data, prev, S⟩ := fit_success F ha w a rnd r h
  have hs := enter_spec F _ _ _ _ _ S.enter
  have hr := S.report
  obtain ⟨trial, t1, _, _, _, t5, t6⟩ := S.accepted.trial
  obtain ⟨trial', m, wt, f1, f2, _, f4, _⟩ := S.accepted.formula
  have heq : trial = trial' := by rw [t1] at f1; exact Except.ok.inj f1
  subst heq
  rw [hs.fitDeg] at t1
  obtain ⟨c0, c1, c2, hv⟩ := hk _ _ _ t1
  rw [hs.tol] at t6
  have hcand : ∀ e ∈ r.matchedPeaks.zip r.matchedAtlas, e ∈ L.cfg.x.zip L.cfg.y := by
    intro e he
    rw [hr] at he
    exact S.accepted.candidates e he
  refine ⟨lines, L, (F.kern a.fitType).polyval trial, S.atlas, S.enter, ?_, ?_⟩
  · intro e he
    refine ⟨hcand e he, ?_, ?_⟩
    · rw [hr] at he
      exact t6 e he
    · intro v hv'
      rw [hr] at he
      dsimp only at he
      rw [f4, List.mem_map] at he
      obtain ⟨z, hz, rfl⟩ := he
      have hz := (List.mem_filter.1 hz).1
      obtain ⟨_, _, n3, _⟩ := C57_matching _ _ _ _ f2
      obtain ⟨_, hcl, _, _⟩ := n3 z hz
      obtain ⟨ws, i, w1, w2, w3, _⟩ := hcl
      exact w3 v ((candTable_mem L.cfg.x L.cfg.y _ ws w1 v).2 hv')
  · intro p hp q hq hpq
    have hmem : ∀ p ∈ r.matchedPeaks, p ∈ L.cfg.x := by
      intro p hp
      have hl : r.matchedPeaks.length = r.matchedAtlas.length := by
        rw [hr]
        exact S.accepted.lengths.1.trans S.accepted.lengths.2.symm
      obtain ⟨i, hi, rfl⟩ := List.mem_iff_getElem.1 hp
      have he : (r.matchedPeaks[i], r.matchedAtlas[i]'(hl ▸ hi)) ∈ r.matchedPeaks.zip r.matchedAtlas := by
        rw [← List.getElem_zip (h := by rw [List.length_zip, ← hl, min_self]; exact hi)]
        exact List.getElem_mem _
      exact (List.of_mem_zip (hcand _ he)).1
    obtain ⟨u, hu, v, hv', huv⟩ := hspan
    have hu := hmem u hu
    have hv' := hmem v hv'
    cases hx : L.cfg.x with
    | nil => rw [hx] at hp; cases hp
    | cons b l =>
      have hmin := listMin_le b l
      have hmax := le_listMax b l
      have m1 : ∀ z ∈ L.cfg.x, listMin b l ≤ z ∧ z ≤ listMax b l := by
        rw [hx]
        intro z hz
        rcases List.mem_cons.1 hz with rfl | hz
        · exact ⟨hmin.1, hmax.1⟩
        · exact ⟨hmin.2 z hz, hmax.2 z hz⟩
      have hlo : listMin b l ∈ L.cfg.x := by rw [hx]; exact listMin_mem b l
      have hhi : listMax b l ∈ L.cfg.x := by rw [hx]; exact listMax_mem b l
      have hg := t5 _ hlo _ hhi m1
      simp only [hv] at hg ⊢
      refine parabola_increases c0 c1 c2 (listMin b l) (listMax b l) ?_ hg p q (m1 p hp).1 hpq (m1 q hq).2
      have := m1 u hu
      have := m1 v hv'
      linarith

/-- C207, what holds of fits of degree 1 and 2 whose matched peaks span at least 7.5 pixels: from a matched peak to the
next the wavelength does not fall by two tolerances, however close the peaks are.  Higher degrees are missing. -/
theorem C207_direction_partial (F : FitEnv K) (ha : IsArgsort F.argsortK) (w : World K) (a : FitArgs K) (rnd : FitRandom K)
    (r : FitReport K) (h : (w.fit F a rnd).2 = .done (.ok r)) (hk : AtMostQuadratic (F.kern a.fitType) a.degree)
    (hspan : ∃ p ∈ r.matchedPeaks, ∃ q ∈ r.matchedPeaks, 15 / 2 ≤ q - p) :
    ∀ e ∈ r.matchedPeaks.zip r.matchedAtlas, ∀ f ∈ r.matchedPeaks.zip r.matchedAtlas, e.1 < f.1 →
      e.2 - f.2 < 2 * w.cal.ransac.tol := by
  obtain ⟨lines, L, g, _, _, h3, h4⟩ := trial_parabola F ha w a rnd r h hk hspan
  intro e he f hf hlt
  obtain ⟨e1, e2, _⟩ := h3 e he
  obtain ⟨f1, f2, _⟩ := h3 f hf
  have hc := h4 e.1 (List.of_mem_zip (a := e.1) (b := e.2) e1).1 f.1 (List.of_mem_zip (a := f.1) (b := f.2) f1).1 hlt
  have g1 := (abs_lt.1 e2).1
  have g2 := (abs_lt.1 f2).2
  linarith

/-- C191 for degrees 1 and 2 and peaks that may be close: where the true wavelength falls by two tolerances between the peaks of
two matches, one of them is wrong. -/
theorem C191_quadratic_partial (F : FitEnv K) (ha : IsArgsort F.argsortK) (w : World K) (a : FitArgs K) (rnd : FitRandom K)
    (r : FitReport K) (h : (w.fit F a rnd).2 = .done (.ok r)) (hk : AtMostQuadratic (F.kern a.fitType) a.degree)
    (hspan : ∃ p ∈ r.matchedPeaks, ∃ q ∈ r.matchedPeaks, 15 / 2 ≤ q - p) (truth : K → K) :
    ∀ e ∈ r.matchedPeaks.zip r.matchedAtlas, ∀ f ∈ r.matchedPeaks.zip r.matchedAtlas, e.1 < f.1 →
      2 * w.cal.ransac.tol ≤ truth e.1 - truth f.1 → e.2 ≠ truth e.1 ∨ f.2 ≠ truth f.1 := by
  intro e he f hf hlt hdec
  by_contra hne
  rw [not_or, not_ne_iff, not_ne_iff] at hne
  have h1 := C207_direction_partial F ha w a rnd r h hk hspan e he f hf hlt
  rw [hne.1, hne.2] at h1
  linarith

/-- C207, for lines that are candidates of both peaks: the wavelengths of these fits are in order. -/
theorem C207_order_partial (F : FitEnv K) (ha : IsArgsort F.argsortK) (w : World K) (a : FitArgs K) (rnd : FitRandom K)
    (r : FitReport K) (h : (w.fit F a rnd).2 = .done (.ok r)) (hk : AtMostQuadratic (F.kern a.fitType) a.degree)
    (hspan : ∃ p ∈ r.matchedPeaks, ∃ q ∈ r.matchedPeaks, 15 / 2 ≤ q - p) :
    ∃ lines L, w.atlasLines = .ok lines ∧ (w.given a).enter F lines a rnd.uniform = some L ∧
      ∀ e ∈ r.matchedPeaks.zip r.matchedAtlas, ∀ f ∈ r.matchedPeaks.zip r.matchedAtlas, e.1 < f.1 →
        (e.1, f.2) ∈ L.cfg.x.zip L.cfg.y → (f.1, e.2) ∈ L.cfg.x.zip L.cfg.y → e.2 < f.2 := by
  have hdist : ∀ e ∈ r.matchedPeaks.zip r.matchedAtlas, ∀ f ∈ r.matchedPeaks.zip r.matchedAtlas, e.2 = f.2 → e = f := by
    obtain ⟨lines, L, s, co, data, prev, S⟩ := fit_success F ha w a rnd r h
    rw [S.report]
    have hn : ((s.matchedPeaks.zip s.matchedAtlas).map Prod.snd).Nodup := by
      rw [List.map_snd_zip (by rw [S.accepted.lengths.1, S.accepted.lengths.2])]
      exact S.accepted.distinct.2
    intro e he f hf hef
    exact List.inj_on_of_nodup_map hn he hf hef
  obtain ⟨lines, L, g, h1, h2, h3, h4⟩ := trial_parabola F ha w a rnd r h hk hspan
  refine ⟨lines, L, h1, h2, ?_⟩
  intro e he f hf hlt hef hfe
  obtain ⟨e1, _, e3⟩ := h3 e he
  obtain ⟨f1, _, f3⟩ := h3 f hf
  have hc := h4 e.1 (List.of_mem_zip (a := e.1) (b := e.2) e1).1 f.1 (List.of_mem_zip (a := f.1) (b := f.2) f1).1 hlt
  have g1 := e3 f.2 hef
  have g2 := f3 e.2 hfe
  by_contra hge
  rw [not_lt] at hge
  have hne : f.2 < e.2 := by
    refine lt_of_le_of_ne hge (fun heq => ?_)
    have := hdist f hf e he heq
    rw [this] at hlt
    exact lt_irrefl _ hlt
  have q1 := sq_le_sq.2 g1
  have q2 := sq_le_sq.2 g2
  nlinarith

end

open Spec

/-- C207, as expected of an instrument whose wavelength increases with the pixel: among matched peaks that span at least 7.5
pixels, a later one has no wavelength that is shorter by two tolerances. -/
def C207_Statement : Prop :=
  ∀ (F : FitEnv ℚ) (w : World ℚ) (a : FitArgs ℚ) (rnd : FitRandom ℚ) (r : FitReport ℚ), IsArgsort F.argsortK →
    (∀ t x, (F.kern a.fitType).polyval t x = evalLow t x) →
    (∀ xs ys t, (F.kern a.fitType).polyfit xs ys a.degree = .ok t → t.length = a.degree + 1) →
    (∀ xs ys t, (F.kern a.fitType).robust xs ys a.degree = .ok t → ∀ e ∈ xs.zip ys, evalLow t e.1 = e.2) →
    (w.fit F a rnd).2 = .done (.ok r) → (∃ p ∈ r.matchedPeaks, ∃ q ∈ r.matchedPeaks, 15 / 2 ≤ q - p) →
    ∀ e ∈ r.matchedPeaks.zip r.matchedAtlas, ∀ f ∈ r.matchedPeaks.zip r.matchedAtlas, e.1 < f.1 →
      e.2 - f.2 < 2 * w.cal.ransac.tol

/-- Newton's interpolation: the polynomial through the points, from the differences divided by the distances to the
first. -/
def Toy.newton : Nat → List (ℚ × ℚ) → List ℚ
  | n + 1, (x, y) :: l =>
    let q := Toy.newton n (l.map (fun e => (e.1, (e.2 - y) / (e.1 - x))))
    List.zipWith (· + ·) (y :: q) (q.map (fun c => -x * c) ++ [0])
  | _, _ => []

/-- The cubic through all the points; other data are refused. -/
def Toy.cubic (xs ys : List ℚ) : PyRes (List ℚ) :=
  if (Toy.newton 4 (xs.zip ys)).length = 4 ∧
      (xs.zip ys).all (fun e => decide (evalLow (Toy.newton 4 (xs.zip ys)) e.1 = e.2)) = true then
    .ok (Toy.newton 4 (xs.zip ys))
  else .error .valueError

/-- Fitting routines that interpolate with cubics. -/
def Toy.cubicEnv : FitEnv ℚ :=
  ⟨fun _ => { polyfit := fun xs ys n => if n = 3 then Toy.cubic (Toy.finites xs) (Toy.finites ys) else .error .valueError
              polyval := evalLow
              robust := fun xs ys n => if n = 3 then Toy.cubic xs ys else .error .valueError
              sqrt := Toy.root
              spline := fun _ _ _ => .ok (fun _ _ => 0) },
    fun _ _ _ => 1, stableArgsort, stableArgsort, true⟩

/-- Five peaks and lines exactly on a cubic that grows from pixel to pixel but falls between 1/4 and 3/4. -/
def Toy.cubicPeaks : PyRes (World ℚ) :=
  match Cal.new (fun _ => .ok ()) [0, 1 / 4, 3 / 4, 11 / 2, 10] true none with
  | .error e => .error e
  | .ok c => .ok (World.steps Toy.calEnv
      ⟨[Toy.atlasOf [3099995 / 1000, 3100185 / 1000, 3099815 / 1000, 3595050 / 1000, 6520095 / 1000]], c⟩
      [.setHough { numSlopes := some 3, xbins := some 4, ybins := some 4 },
       .setRansac { sampleSize := some 4, minFitError := some 0, houghWeight := some (.fin 0), topN := some 10,
                    tol := some (1 / 10) },
       .setAtlas 0 10 false])

/-- The arguments of this fit. -/
def Toy.cubicArgs : FitArgs ℚ := { fitDeg := 3, candTol := 10000, maxTries := 1 }

theorem Toy.cubic_spec (xs ys t : List ℚ) (h : Toy.cubic xs ys = .ok t) :
    t.length = 4 ∧ ∀ e ∈ xs.zip ys, evalLow t e.1 = e.2 := by
  unfold Toy.cubic at h
  split at h
  · rename_i hc
    cases h
    refine ⟨hc.1, fun e he => ?_⟩
    exact of_decide_eq_true (List.all_eq_true.1 hc.2 e he)
  · cases h

/-- C207 is false for degree 3: the check for monotony looks at steps of a pixel, and the cubic falls within one of them.
The peak at 1/4 is matched with 3100.185, the one at 3/4 with 3099.815; the tolerance is 1/10. -/
theorem C207_refuted : ¬ C207_Statement := by
  intro h
  have hc : Toy.cubicPeaks.toOption.bind (fun w =>
      (Toy.report (w.fit Toy.cubicEnv Toy.cubicArgs ⟨fun _ => 0, [⟨[0, 0, 0, 0], [0, 0, 0, 0]⟩]⟩)).map (fun r =>
        (w.cal.ransac.tol, r.matchedPeaks, r.matchedAtlas))) =
      some (1 / 10, [3 / 4, 0, 1 / 4, 11 / 2, 10],
        [3099815 / 1000, 3099995 / 1000, 3100185 / 1000, 3595050 / 1000, 6520095 / 1000]) := by
    decide +kernel
  cases hw : Toy.cubicPeaks with
  | error e => rw [hw] at hc; simp [Except.toOption] at hc
  | ok w =>
    rw [hw] at hc
    simp only [Except.toOption, Option.bind_some, Option.map_eq_some_iff, Prod.mk.injEq] at hc
    obtain ⟨r, hr, h1, h2, h3⟩ := hc
    have := h Toy.cubicEnv w Toy.cubicArgs _ r stableArgsort_isArgsort (fun _ _ => rfl)
      (fun xs ys t ht => (Toy.cubic_spec _ _ t ht).1) (fun xs ys t ht => (Toy.cubic_spec _ _ t ht).2)
      (Toy.report_some _ _ hr) ⟨0, by rw [h2]; decide +kernel, 10, by rw [h2]; decide +kernel, by norm_num⟩
      (1 / 4, 3100185 / 1000) (by rw [h2, h3]; decide +kernel) (3 / 4, 3099815 / 1000)
      (by rw [h2, h3]; decide +kernel) (by norm_num)
    rw [h1] at this
    norm_num at this

theorem Toy.quad_kern : Spec.AtMostQuadratic (Toy.quadEnv.kern .poly) 2 := by
  intro x y t h
  have hl : ∃ c0 c1 c2, t = [c0, c1, c2] := by
    change (Toy.parabola (Toy.finites x) (Toy.finites y)).map (Toy.inBasis .poly) = .ok t at h
    unfold Toy.parabola at h
    split at h
    · dsimp only at h
      split at h
      · cases h
      · exact ⟨_, _, _, (Except.ok.inj h).symm⟩
    · cases h
  obtain ⟨c0, c1, c2, rfl⟩ := hl
  refine ⟨c0, c1, c2, fun p => ?_⟩
  show npPolyval [c0, c1, c2] p = _
  unfold npPolyval
  simp
  ring

/-- Case of `C207_direction_partial`, `C207_order_partial` and `C191_quadratic_partial`: a fit of degree 2 that matches three peaks. -/
example : ∃ (w : World ℚ) (r : FitReport ℚ), (w.fit Toy.quadEnv (Toy.quadArgs .poly) Toy.rnd).2 = .done (.ok r) ∧
    r.matchedPeaks = [10, 20, 31] ∧ Spec.AtMostQuadratic (Toy.quadEnv.kern .poly) 2 ∧
    ∀ e ∈ r.matchedPeaks.zip r.matchedAtlas, ∀ f ∈ r.matchedPeaks.zip r.matchedAtlas, e.1 < f.1 →
      e.2 - f.2 < 2 * w.cal.ransac.tol := by
  have hc : Toy.quadPeaks.toOption.bind (fun w =>
      (Toy.report (w.fit Toy.quadEnv (Toy.quadArgs .poly) Toy.rnd)).map (fun r => r.matchedPeaks)) =
      some [10, 20, 31] := by decide +kernel
  cases hw : Toy.quadPeaks with
  | error e => rw [hw] at hc; simp [Except.toOption] at hc
  | ok w =>
    rw [hw] at hc
    simp only [Except.toOption, Option.bind_some, Option.map_eq_some_iff] at hc
    obtain ⟨r, hr, h1⟩ := hc
    have hf := Toy.report_some _ _ hr
    exact ⟨w, r, hf, h1, Toy.quad_kern, C207_direction_partial Toy.quadEnv stableArgsort_isArgsort w _ _ r hf Toy.quad_kern
      ⟨10, by rw [h1]; decide +kernel, 31, by rw [h1]; decide +kernel, by norm_num⟩⟩

end Rascal
