import Verif.Props.QuadraticProps
import Verif.Props.NoiseProps
import Verif.Props.ModelFns
import Mathlib.Order.CountableDenseLinearOrder

/-!
Property theorem C209: whether the wavelength of the returned solution increases with the pixel.
-/

set_option linter.unusedSectionVars false

namespace Rascal

section
variable {K : Type _} [Field K] [LinearOrder K] [IsStrictOrderedRing K]

/-- A loss that grows with the size of the error, as the square and the Huber loss do. -/
def Spec.GrowsWithError (rho : K → K) : Prop := ∀ r r' : K, |r| < |r'| → rho r < rho r'

/-- The total loss of a calibration (lowest order first) on pairs of pixels and wavelengths. -/
def Spec.lossOf (rho : K → K) (q : List K) (l : List (K × K)) : K := (l.map (fun e => rho (e.2 - Spec.evalLow q e.1))).sum

/-- Wavelengths in the order of the pixels. -/
def Spec.InOrder (l : List (K × K)) : Prop := ∀ e ∈ l, ∀ f ∈ l, e.1 < f.1 → e.2 < f.2

open Spec

theorem sum_map_lt {α : Type _} (l : List α) (f g : α → K) (h : ∀ e ∈ l, f e ≤ g e) (hs : ∃ e ∈ l, f e < g e) :
    (l.map f).sum < (l.map g).sum := by
  induction l with
  | nil => obtain ⟨e, he, _⟩ := hs; cases he
  | cons a l ih =>
    rw [List.map_cons, List.map_cons, List.sum_cons, List.sum_cons]
    have hle : (l.map f).sum ≤ (l.map g).sum := by
      apply List.sum_le_sum
      intro e he
      exact h e (List.mem_cons_of_mem _ he)
    obtain ⟨e, he, hlt⟩ := hs
    rcases List.mem_cons.1 he with rfl | he
    · linarith
    · have := ih (fun e he => h e (List.mem_cons_of_mem _ he)) ⟨e, he, hlt⟩
      have := h a List.mem_cons_self
      linarith

/-- The best straight line through pairs in order rises, whatever loss is minimised. -/
theorem best_line_rises (rho : K → K) (hrho : GrowsWithError rho) (l : List (K × K)) (hord : InOrder l)
    (hfun : ∀ e ∈ l, ∀ f ∈ l, e.1 = f.1 → e = f) (htwo : ∃ e ∈ l, ∃ f ∈ l, e.1 < f.1) (a b : K)
    (hbest : ∀ a' b', lossOf rho [a, b] l ≤ lossOf rho [a', b'] l) : 0 < b := by
  by_contra hb
  rw [not_lt] at hb
  have hval : ∀ a b x : K, evalLow [a, b] x = a + b * x := by
    intro a b x
    simp only [evalLow]
    ring
  set r : K × K → K := fun e => e.2 - (a + b * e.1) with hr
  have hinc : ∀ e ∈ l, ∀ f ∈ l, e.1 < f.1 → r e < r f := by
    intro e he f hf hlt
    have h1 := hord e he f hf hlt
    have h2 : b * f.1 ≤ b * e.1 := mul_le_mul_of_nonpos_left hlt.le hb
    simp only [hr]
    linarith
  have hback : ∀ e ∈ l, ∀ f ∈ l, r e < r f → e.1 < f.1 := by
    intro e he f hf hlt
    rcases lt_trichotomy e.1 f.1 with h | h | h
    · exact h
    · rw [hfun e he f hf h] at hlt; exact absurd hlt (lt_irrefl _)
    · exact absurd (hinc f hf e he h) (not_lt.2 hlt.le)
  -- where the residuals change their sign
  obtain ⟨c, hneg, hpos, hzero⟩ : ∃ c, (∀ e ∈ l, r e < 0 → e.1 < c) ∧ (∀ e ∈ l, 0 < r e → c < e.1) ∧
      (∀ e ∈ l, r e = 0 → e.1 = c) := by
    by_cases hz : ∃ e ∈ l, r e = 0
    · obtain ⟨z, hz, hz0⟩ := hz
      refine ⟨z.1, fun e he h => hback e he z hz (by rw [hz0]; exact h), fun e he h => hback z hz e he (by rw [hz0]; exact h),
        fun e he h => ?_⟩
      rcases lt_trichotomy e.1 z.1 with h' | h' | h'
      · have := hinc e he z hz h'
        rw [h, hz0] at this
        exact absurd this (lt_irrefl _)
      · exact h'
      · have := hinc z hz e he h'
        rw [h, hz0] at this
        exact absurd this (lt_irrefl _)
    · obtain ⟨m, h1, h2⟩ := Order.exists_between_finsets
        ((l.filter (fun e => decide (r e < 0))).map Prod.fst).toFinset
        ((l.filter (fun e => decide (0 < r e))).map Prod.fst).toFinset (by
          intro x hx y hy
          rw [List.mem_toFinset, List.mem_map] at hx hy
          obtain ⟨e, he, rfl⟩ := hx
          obtain ⟨f, hf, rfl⟩ := hy
          rw [List.mem_filter, decide_eq_true_eq] at he hf
          exact hback e he.1 f hf.1 (lt_trans he.2 hf.2))
      refine ⟨m, fun e he h => h1 _ ?_, fun e he h => h2 _ ?_, fun e he h => absurd ⟨e, he, h⟩ hz⟩
      · rw [List.mem_toFinset, List.mem_map]
        exact ⟨e, List.mem_filter.2 ⟨he, decide_eq_true h⟩, rfl⟩
      · rw [List.mem_toFinset, List.mem_map]
        exact ⟨e, List.mem_filter.2 ⟨he, decide_eq_true h⟩, rfl⟩
  -- how far the line can be turned about that point
  obtain ⟨ε, hε, hsmall⟩ : ∃ ε : K, 0 < ε ∧ ∀ e ∈ l, e.1 ≠ c → ε < r e / (e.1 - c) := by
    obtain ⟨ε, h1, h2⟩ := Order.exists_between_finsets ({0} : Finset K)
      ((l.filter (fun e => decide (e.1 ≠ c))).map (fun e => r e / (e.1 - c))).toFinset (by
        intro x hx y hy
        rw [Finset.mem_singleton] at hx
        rw [List.mem_toFinset, List.mem_map] at hy
        obtain ⟨e, he, rfl⟩ := hy
        rw [List.mem_filter, decide_eq_true_eq] at he
        rw [hx]
        rcases lt_trichotomy (r e) 0 with h | h | h
        · exact div_pos_of_neg_of_neg h (sub_neg.2 (hneg e he.1 h))
        · exact absurd (hzero e he.1 h) he.2
        · exact div_pos h (sub_pos.2 (hpos e he.1 h)))
    refine ⟨ε, h1 0 (Finset.mem_singleton_self _), fun e he h => h2 _ ?_⟩
    rw [List.mem_toFinset, List.mem_map]
    exact ⟨e, List.mem_filter.2 ⟨he, decide_eq_true h⟩, rfl⟩
  have hless : ∀ e ∈ l, e.1 ≠ c → |r e - ε * (e.1 - c)| < |r e| := by
    intro e he hne
    have hs := hsmall e he hne
    rcases lt_or_gt_of_ne hne with h | h
    · have hd : e.1 - c < 0 := sub_neg.2 h
      have hr0 : r e < 0 := by
        rcases lt_trichotomy (r e) 0 with h' | h' | h'
        · exact h'
        · exact absurd (hzero e he h') hne
        · exact absurd (hpos e he h') (not_lt.2 h.le)
      have h1 : r e < ε * (e.1 - c) := (lt_div_iff_of_neg hd).1 hs
      have h2 : ε * (e.1 - c) < 0 := mul_neg_of_pos_of_neg hε hd
      rw [abs_of_neg (by linarith), abs_of_neg hr0]
      linarith
    · have hd : 0 < e.1 - c := sub_pos.2 h
      have hr0 : 0 < r e := by
        rcases lt_trichotomy (r e) 0 with h' | h' | h'
        · exact absurd (hneg e he h') (not_lt.2 h.le)
        · exact absurd (hzero e he h') hne
        · exact h'
      have h1 : ε * (e.1 - c) < r e := (lt_div_iff₀ hd).1 hs
      have h2 : 0 < ε * (e.1 - c) := mul_pos hε hd
      rw [abs_of_pos (by linarith), abs_of_pos hr0]
      linarith
  have hres : ∀ e : K × K, e.2 - evalLow [a - ε * c, b + ε] e.1 = r e - ε * (e.1 - c) := by
    intro e
    rw [hval]
    simp only [hr]
    ring
  have hres0 : ∀ e : K × K, e.2 - evalLow [a, b] e.1 = r e := by
    intro e
    rw [hval]
  refine absurd (hbest (a - ε * c) (b + ε)) (not_le.2 ?_)
  unfold lossOf
  apply sum_map_lt
  · intro e he
    rw [hres, hres0]
    by_cases hne : e.1 = c
    · rw [hne, sub_self, mul_zero, sub_zero]
    · exact (hrho _ _ (hless e he hne)).le
  · obtain ⟨e, he, f, hf, hlt⟩ := htwo
    by_cases hne : e.1 = c
    · refine ⟨f, hf, ?_⟩
      rw [hres, hres0]
      exact hrho _ _ (hless f hf (by rw [← hne]; exact hlt.ne'))
    · refine ⟨e, he, ?_⟩
      rw [hres, hres0]
      exact hrho _ _ (hless e he hne)

/-- C209 for `manual_refit`: a line through pairs in order rises, for every loss that the robust fit may minimise. -/
theorem C209_manual (F : FitEnv K) (M : MatchKernels K) (s s' : Session K) (a : RefitArgs K) (r : RefitReport K) (u v : K)
    (h : s.manualRefit F M a = (s', .ok r)) (hc : r.coeffs = some [u, v]) (rho : K → K) (hrho : GrowsWithError rho)
    (hrob : ∀ xs ys d x0 co, xs.length = ys.length → M.robust xs ys d x0 = .ok (some co) →
      ∀ co' : List K, co'.length = co.length → lossOf rho co (xs.zip ys) ≤ lossOf rho co' (xs.zip ys))
    (hnd : r.peaks.Nodup) (htwo : 2 ≤ r.peaks.length) (hord : InOrder (r.peaks.zip r.atlas)) :
    r.peaks.length = r.atlas.length ∧ ∀ p q : K, p < q → evalLow [u, v] p < evalLow [u, v] q := by
  have hcase := manualRefit_cases F M s a
  rw [h] at hcase
  dsimp only at hcase
  generalize ho : (Except.ok r : PyRes (RefitReport K)) = o at hcase
  cases hcase with
  | early e => cases ho
  | stored x0 deg co' g1 g2 g3 g4 g5 g6 =>
    unfold Session.finishRefit at ho
    have hbasis : (s.storeRefit a deg co').basis = s.basis := rfl
    rw [hbasis] at ho
    cases hb : s.basis with
    | none => rw [hb] at ho; cases ho
    | some b =>
      rw [hb] at ho
      have hr := Except.ok.inj ho
      have e1 : co' = some [u, v] := by rw [← hc, hr]
      subst e1
      have e2 : (s.refitLists a).1.2 = r.peaks := by rw [hr]
      have e3 : (s.refitLists a).2.2 = r.atlas := by rw [hr]
      have hbest := hrob _ _ _ _ _ g3 g6
      rw [e2, e3] at hbest g3
      refine ⟨g3, ?_⟩
      have n1 : ((r.peaks.zip r.atlas).map Prod.fst).Nodup := by rw [List.map_fst_zip g3.le]; exact hnd
      have hv : 0 < v := by
        refine best_line_rises rho hrho _ hord (fun e he f hf heq => List.inj_on_of_nodup_map n1 he hf heq) ?_ u v
          (fun a' b' => hbest [a', b'] rfl)
        have hz : ∀ i : Nat, ∀ hi : i < r.peaks.length, (r.peaks[i], r.atlas[i]'(g3 ▸ hi)) ∈ r.peaks.zip r.atlas := by
          intro i hi
          rw [← List.getElem_zip (h := by rw [List.length_zip, ← g3, min_self]; exact hi)]
          exact List.getElem_mem _
        have hne : r.peaks[0]'(by omega) ≠ r.peaks[1]'(by omega) := by
          intro heq
          have := (List.Nodup.getElem_inj_iff hnd).1 heq
          omega
        rcases lt_or_gt_of_ne hne with hlt | hlt
        · exact ⟨_, hz 0 (by omega), _, hz 1 (by omega), hlt⟩
        · exact ⟨_, hz 1 (by omega), _, hz 0 (by omega), hlt⟩
      intro p q hpq
      simp only [evalLow]
      have := mul_lt_mul_of_pos_left hpq hv
      linarith

/-- C209, what holds of fits of degree 1: if the matched lines are two tolerances apart and the matched peaks span at least 7.5
pixels, the wavelength of the returned solution increases with the pixel everywhere, for every loss that the robust fit may
minimise. -/
theorem C209_line_partial [FloorRing K] (F : FitEnv K) (ha : IsArgsort F.argsortK) (w : World K) (a : FitArgs K)
    (rnd : FitRandom K) (r : FitReport K) (h : (w.fit F a rnd).2 = .done (.ok r)) (hd : a.degree = 1)
    (hk : AtMostQuadratic (F.kern a.fitType) 1) (rho : K → K) (hrho : GrowsWithError rho)
    (hrob : ∀ xs ys co, xs.length = ys.length → (F.kern a.fitType).robust xs ys 1 = .ok co →
      ∃ u v, co = [u, v] ∧ ∀ u' v', lossOf rho [u, v] (xs.zip ys) ≤ lossOf rho [u', v'] (xs.zip ys))
    (hspan : ∃ p ∈ r.matchedPeaks, ∃ q ∈ r.matchedPeaks, 15 / 2 ≤ q - p)
    (hsep : ∀ u ∈ r.matchedAtlas, ∀ v ∈ r.matchedAtlas, u ≠ v → 2 * w.cal.ransac.tol ≤ |u - v|) :
    ∀ p q : K, p < q → evalLow r.coeffs p < evalLow r.coeffs q := by
  have hdir := C207_direction_partial F ha w a rnd r h (by rw [hd]; exact hk) hspan
  obtain ⟨lines, L, s, co, data, prev, S⟩ := fit_success F ha w a rnd r h
  have hl : s.matchedPeaks.length = s.matchedAtlas.length := by
    rw [S.accepted.lengths.1, S.accepted.lengths.2]
  have e1 : r.coeffs = co := by rw [S.report]
  have e2 : r.matchedPeaks = s.matchedPeaks := by rw [S.report]
  have e3 : r.matchedAtlas = s.matchedAtlas := by rw [S.report]
  have hrob' := S.robust
  rw [hd] at hrob'
  obtain ⟨u, v, hco, hbest⟩ := hrob _ _ _ hl hrob'
  have n1 : ((s.matchedPeaks.zip s.matchedAtlas).map Prod.fst).Nodup := by
    rw [List.map_fst_zip hl.le]; exact S.accepted.distinct.1
  have n2 : ((s.matchedPeaks.zip s.matchedAtlas).map Prod.snd).Nodup := by
    rw [List.map_snd_zip hl.ge]; exact S.accepted.distinct.2
  rw [e2, e3] at hdir
  rw [e3] at hsep
  rw [e2] at hspan
  have hord : InOrder (s.matchedPeaks.zip s.matchedAtlas) := by
    intro e he f hf hlt
    have h1 := hdir e he f hf hlt
    have hne : e.2 ≠ f.2 := by
      intro heq
      rw [List.inj_on_of_nodup_map n2 he hf heq] at hlt
      exact lt_irrefl _ hlt
    have h2 := hsep e.2 (List.of_mem_zip (a := e.1) (b := e.2) he).2 f.2 (List.of_mem_zip (a := f.1) (b := f.2) hf).2 hne
    rcases lt_or_gt_of_ne hne with h3 | h3
    · exact h3
    · rw [abs_of_pos (sub_pos.2 h3)] at h2
      linarith
  have hpair : ∀ p ∈ s.matchedPeaks, ∃ e ∈ s.matchedPeaks.zip s.matchedAtlas, e.1 = p := by
    intro p hp
    rw [← List.map_fst_zip (l₁ := s.matchedPeaks) (l₂ := s.matchedAtlas) hl.le, List.mem_map] at hp
    exact hp
  have hv : 0 < v := by
    refine best_line_rises rho hrho _ hord (fun e he f hf heq => List.inj_on_of_nodup_map n1 he hf heq) ?_ u v hbest
    obtain ⟨p, hp, q, hq, hpq⟩ := hspan
    obtain ⟨e, he, rfl⟩ := hpair p hp
    obtain ⟨f, hf, rfl⟩ := hpair q hq
    exact ⟨e, he, f, hf, by linarith⟩
  intro p q hpq
  rw [e1, hco]
  simp only [evalLow]
  have := mul_lt_mul_of_pos_left hpq hv
  linarith

end

open Spec

/-- The square grows with the error. -/
theorem grows_square : GrowsWithError (fun r : ℚ => r ^ 2) := fun _ _ h => sq_lt_sq.2 h

/-- The Huber loss of the code grows with the error. -/
theorem grows_huber : GrowsWithError Spec.huber := by
  intro r r' h
  have h2 := sq_lt_sq.2 h
  unfold Spec.huber
  have a1 := sq_abs r
  have a2 := sq_abs r'
  have a3 := abs_nonneg r
  split <;> split
  · exact h2
  · rename_i g1 g2
    rw [not_le] at g2
    have : 1 < |r'| := by nlinarith [abs_nonneg r']
    linarith
  · rename_i g1 g2
    rw [not_le] at g1
    linarith
  · linarith

/-- C209 for `robust_polyfit` itself, with its Huber loss and its normalisation: a line through pairs in order rises, if the
solver finds the minimum. -/
theorem C209_robust_polyfit (solve : (List ℝ → PyRes (List ℝ)) → List ℝ → List ℝ) (x y : List ℝ)
    (hs : KeepsLength solve 1) (ho : GlobalMinimiser Spec.huber solve x y 1) (x0 : Option (List ℝ)) (out : List ℝ)
    (h : robustPolyfit solve x y 1 x0 = .ok out) (hord : InOrder (x.zip y))
    (hfun : ∀ e ∈ x.zip y, ∀ f ∈ x.zip y, e.1 = f.1 → e = f) (htwo : ∃ e ∈ x.zip y, ∃ f ∈ x.zip y, e.1 < f.1) :
    ∀ p q : ℝ, p < q → evalLow out p < evalLow out q := by
  obtain ⟨p0, hp0, hlen, _⟩ := C21_denormalisation solve x y 1 hs x0 out h
  obtain ⟨a, b, rfl⟩ : ∃ a b, out = [a, b] := by
    match out, hlen with
    | [a, b], _ => exact ⟨a, b, rfl⟩
  have hne : npStd y ≠ 0 := by
    unfold robustPolyfit at h
    cases x0 with
    | none =>
      simp only at h
      split at h
      · cases h
      · rename_i hc; tauto
    | some p =>
      simp only at h
      split at h
      · cases h
      · split at h
        · cases h
        · split at h
          · cases h
          · rename_i hc; tauto
  have hloss : ∀ c : List ℝ, Spec.totalLoss Spec.huber ((Spec.residuals c x y).map (· / npStd y)) =
      lossOf (fun r => Spec.huber (r / npStd y)) c (x.zip y) := by
    intro c
    unfold Spec.totalLoss Spec.residuals lossOf
    rw [List.map_map, List.zip, List.map_zipWith, List.map_zipWith]
    rfl
  have hb : 0 < b := by
    refine best_line_rises (fun r => Spec.huber (r / npStd y)) ?_ _ hord hfun htwo a b ?_
    · intro r r' hlt
      apply grows_huber
      rw [abs_div, abs_div]
      exact div_lt_div_of_pos_right hlt (abs_pos.2 hne)
    · intro a' b'
      have := C22_optimal Spec.huber solve x y 1 hs ho x0 _ h [a', b'] rfl
      rwa [hloss, hloss] at this
  intro p q hpq
  simp only [evalLow]
  have := mul_lt_mul_of_pos_left hpq hb
  linarith

/-- C209, as expected: the check for monotony makes the returned solution increase between the matched peaks, here for least
squares and lines two tolerances apart. -/
def C209_Statement : Prop :=
  ∀ (F : FitEnv ℚ) (w : World ℚ) (a : FitArgs ℚ) (rnd : FitRandom ℚ) (r : FitReport ℚ), IsArgsort F.argsortK →
    Powers (F.kern a.fitType) → AtMostQuadratic (F.kern a.fitType) a.degree → FitsSquares (F.kern a.fitType).robust →
    (w.fit F a rnd).2 = .done (.ok r) → (∃ p ∈ r.matchedPeaks, ∃ q ∈ r.matchedPeaks, 15 / 2 ≤ q - p) →
    (∀ u ∈ r.matchedAtlas, ∀ v ∈ r.matchedAtlas, u ≠ v → 2 * w.cal.ransac.tol ≤ |u - v|) →
    ∀ u ∈ r.matchedPeaks, ∀ v ∈ r.matchedPeaks, ∀ p q : ℚ, u ≤ p → p < q → q ≤ v →
      evalLow r.coeffs p < evalLow r.coeffs q

/-- Coefficients whose residuals are orthogonal to all parabolas give the best squares. -/
theorem best_of_normal (xs ys : List ℚ) (a b c : ℚ)
    (h0 : ((xs.zip ys).map (fun e => e.2 - evalLow [a, b, c] e.1)).sum = 0)
    (h1 : ((xs.zip ys).map (fun e => (e.2 - evalLow [a, b, c] e.1) * e.1)).sum = 0)
    (h2 : ((xs.zip ys).map (fun e => (e.2 - evalLow [a, b, c] e.1) * e.1 ^ 2)).sum = 0) :
    BestSquares xs ys 2 [a, b, c] := by
  refine ⟨rfl, ?_⟩
  intro q hq
  match q, hq with
  | [u, v, t], _ =>
    rw [errorSquares_zip, errorSquares_zip]
    have e : ((xs.zip ys).map (fun p => (p.2 - evalLow [u, v, t] p.1) ^ 2)).sum =
        ((xs.zip ys).map (fun p => (p.2 - evalLow [a, b, c] p.1) ^ 2)).sum +
        ((xs.zip ys).map (fun e => e.2 - evalLow [a, b, c] e.1)).sum * (2 * (a - u)) +
        ((xs.zip ys).map (fun e => (e.2 - evalLow [a, b, c] e.1) * e.1)).sum * (2 * (b - v)) +
        ((xs.zip ys).map (fun e => (e.2 - evalLow [a, b, c] e.1) * e.1 ^ 2)).sum * (2 * (c - t)) +
        ((xs.zip ys).map (fun p => ((a - u) + (b - v) * p.1 + (c - t) * p.1 ^ 2) ^ 2)).sum := by
      rw [← listSum_mul, ← listSum_mul, ← listSum_mul, ← listSum_add, ← listSum_add, ← listSum_add, ← listSum_add]
      congr 1
      apply List.map_congr_left
      intro p _
      simp only [evalLow]
      ring
    rw [e, h0, h1, h2]
    have : 0 ≤ ((xs.zip ys).map (fun p => ((a - u) + (b - v) * p.1 + (c - t) * p.1 ^ 2) ^ 2)).sum := by
      apply List.sum_nonneg
      intro w hw
      obtain ⟨p, _, rfl⟩ := List.mem_map.1 hw
      exact sq_nonneg _
    linarith

/-- Solution of three linear equations by Cramer's rule. -/
def Toy.cramer (s0 s1 s2 s3 s4 t0 t1 t2 : ℚ) : ℚ × ℚ × ℚ :=
  let det := fun (a b c d e f g h i : ℚ) => a * (e * i - f * h) - b * (d * i - f * g) + c * (d * h - e * g)
  let d := det s0 s1 s2 s1 s2 s3 s2 s3 s4
  (det t0 s1 s2 t1 s2 s3 t2 s3 s4 / d, det s0 t0 s2 s1 t1 s3 s2 t2 s4 / d, det s0 s1 t0 s1 s2 t1 s2 s3 t2 / d)

/-- The parabola of least squares; data without a unique one are refused. -/
def Toy.squares (xs ys : List ℚ) : PyRes (List ℚ) :=
  let z := xs.zip ys
  let s := fun n => (z.map (fun e => e.1 ^ n)).sum
  let t := fun n => (z.map (fun e => e.1 ^ n * e.2)).sum
  let (a, b, c) := Toy.cramer (s 0) (s 1) (s 2) (s 3) (s 4) (t 0) (t 1) (t 2)
  if (z.map (fun e => e.2 - evalLow [a, b, c] e.1)).sum = 0 ∧
      (z.map (fun e => (e.2 - evalLow [a, b, c] e.1) * e.1)).sum = 0 ∧
      (z.map (fun e => (e.2 - evalLow [a, b, c] e.1) * e.1 ^ 2)).sum = 0 then .ok [a, b, c]
  else .error .valueError

theorem Toy.squares_spec (xs ys co : List ℚ) (h : Toy.squares xs ys = .ok co) :
    (∃ a b c, co = [a, b, c]) ∧ BestSquares xs ys 2 co := by
  unfold Toy.squares at h
  dsimp only at h
  split at h
  · rename_i hc
    have := (Except.ok.inj h).symm
    rw [this]
    exact ⟨⟨_, _, _, rfl⟩, best_of_normal _ _ _ _ _ hc.1 hc.2.1 hc.2.2⟩
  · cases h

/-- Fitting routines of degree 2 by least squares. -/
def Toy.squaresEnv : FitEnv ℚ :=
  ⟨fun _ => { polyfit := fun xs ys n => if n = 2 then Toy.squares (Toy.finites xs) (Toy.finites ys) else .error .valueError
              polyval := evalLow
              robust := fun xs ys n => if n = 2 then Toy.squares xs ys else .error .valueError
              sqrt := Toy.root
              spline := fun _ _ _ => .ok (fun _ _ => 0) },
    fun _ _ _ => 1, stableArgsort, stableArgsort, true⟩

/-- Four peaks; the lines of 8, 9 and 35 are on a parabola that increases up to pixel 40, that of 10 is 4 off. -/
def Toy.bentPeaks : PyRes (World ℚ) :=
  match Cal.new (fun _ => .ok ()) [8, 9, 10, 35] true none with
  | .error e => .error e
  | .ok c => .ok (World.steps Toy.calEnv
      ⟨[Toy.atlasOf [309352 / 100, 310377 / 100, 311770 / 100, 325795 / 100]], c⟩
      [.setHough { numSlopes := some 3, xbins := some 4, ybins := some 4 },
       .setRansac { sampleSize := some 3, minFitError := some 0, houghWeight := some (.fin 0), topN := some 10 },
       .setAtlas 0 10 false])

/-- The arguments of this fit. -/
def Toy.bentArgs : FitArgs ℚ := { fitDeg := 2, candTol := 10000, maxTries := 1 }

/-- C209 is false for degree 2: the sample increases, the solution fitted to all matches turns at pixel 34.35. -/
theorem C209_refuted : ¬ C209_Statement := by
  intro h
  have hc : Toy.bentPeaks.toOption.bind (fun w =>
      (Toy.report (w.fit Toy.squaresEnv Toy.bentArgs ⟨fun _ => 0, [⟨[0, 0, 1], [0, 0, 1]⟩]⟩)).map (fun r =>
        (w.cal.ransac.tol, r.matchedPeaks, r.matchedAtlas, r.coeffs))) =
      some (5, [8, 9, 10, 35], [77338 / 25, 310377 / 100, 31177 / 10, 65159 / 20],
        [509456661 / 171113, 2041653 / 124900, -1017877 / 4277825]) := by
    decide +kernel
  cases hw : Toy.bentPeaks with
  | error e => rw [hw] at hc; simp [Except.toOption] at hc
  | ok w =>
    rw [hw] at hc
    simp only [Except.toOption, Option.bind_some, Option.map_eq_some_iff, Prod.mk.injEq] at hc
    obtain ⟨r, hr, h1, h2, h3, h4⟩ := hc
    have := h Toy.squaresEnv w Toy.bentArgs _ r stableArgsort_isArgsort (fun _ _ => rfl)
      (by
        intro x y t ht
        obtain ⟨⟨a, b, c, rfl⟩, _⟩ := Toy.squares_spec _ _ t ht
        refine ⟨a, b, c, fun p => ?_⟩
        change evalLow [a, b, c] p = _
        simp only [evalLow]
        ring)
      (by
        intro xs ys d co _ ht
        change (if d = 2 then Toy.squares xs ys else .error .valueError) = .ok co at ht
        split at ht
        · rename_i hd
          subst hd
          exact (Toy.squares_spec xs ys co ht).2
        · cases ht)
      (Toy.report_some _ _ hr) ⟨8, by rw [h2]; decide +kernel, 35, by rw [h2]; decide +kernel, by norm_num⟩
      (by rw [h1, h3]; decide +kernel) 8 (by rw [h2]; decide +kernel) 35 (by rw [h2]; decide +kernel) (69 / 2) 35
      (by norm_num) (by norm_num) (by norm_num)
    rw [h4] at this
    revert this
    decide +kernel

theorem Toy.kern_line : AtMostQuadratic (Toy.env.kern .poly) 1 := by
  intro x y t h
  obtain ⟨a, b, rfl⟩ : ∃ a b, t = [a, b] := by
    change Toy.line (Toy.finites x) (Toy.finites y) = .ok t at h
    unfold Toy.line at h
    dsimp only at h
    split at h
    · cases h
    · exact ⟨_, _, (Except.ok.inj h).symm⟩
  · refine ⟨a, b, 0, fun p => ?_⟩
    rw [show (Toy.env.kern .poly).polyval [a, b] p = evalLow [a, b] p from Toy.kern_powers _ _]
    simp only [evalLow]
    ring

/-- The hypotheses of `C209_line_partial` met: four matches, the last line off by 7. -/
example : ∃ (w : World ℚ) (r : FitReport ℚ),
    (w.fit Toy.env (Toy.fourArgs 1) ⟨fun _ => 0, [⟨[0, 2], [0, 0]⟩]⟩).2 = .done (.ok r) ∧
    r.matchedAtlas = [4500, 5900, 7440, 8847] ∧ ∀ p q : ℚ, p < q → evalLow r.coeffs p < evalLow r.coeffs q := by
  have hc : (Toy.fourPeaks [4500, 5900, 7440, 8847]).toOption.bind (fun w =>
      (Toy.report (w.fit Toy.env (Toy.fourArgs 1) ⟨fun _ => 0, [⟨[0, 2], [0, 0]⟩]⟩)).map (fun r =>
        (w.cal.ransac.tol, r.matchedPeaks, r.matchedAtlas))) =
      some (5, [10, 20, 31, 41], [4500, 5900, 7440, 8847]) := by decide +kernel
  cases hw : Toy.fourPeaks [4500, 5900, 7440, 8847] with
  | error e => rw [hw] at hc; simp [Except.toOption] at hc
  | ok w =>
    rw [hw] at hc
    simp only [Except.toOption, Option.bind_some, Option.map_eq_some_iff, Prod.mk.injEq] at hc
    obtain ⟨r, hr, h1, h2, h3⟩ := hc
    have hf := Toy.report_some _ _ hr
    refine ⟨w, r, hf, h3, C209_line_partial Toy.env stableArgsort_isArgsort w _ _ r hf rfl Toy.kern_line _ grows_square ?_
      ⟨10, by rw [h2]; decide +kernel, 31, by rw [h2]; decide +kernel, by norm_num⟩ (by rw [h1, h3]; decide +kernel)⟩
    intro xs ys co hl hco
    have hb := Toy.kern_squares xs ys 1 co hl hco
    match co, hb with
    | [u, v], hb =>
      refine ⟨u, v, rfl, fun u' v' => ?_⟩
      have := hb.2 [u', v'] rfl
      rwa [errorSquares_zip, errorSquares_zip] at this

/-- The hypotheses of `C209_robust_polyfit` met: five pairs, the last line off by a half. -/
example : ∃ (solve : (List ℝ → PyRes (List ℝ)) → List ℝ → List ℝ) (out : List ℝ),
    robustPolyfit solve Toy.fivePixels (Toy.fiveLines (1 / 2)) 1 none = .ok out ∧
    ∀ p q : ℝ, p < q → evalLow out p < evalLow out q := by
  have hb : (0 : ℝ) < 1 / 2 := by norm_num
  have hstdy : npStd (Toy.fiveLines (1 / 2)) ≠ 0 := by
    have := Toy.five_std (1 / 2) hb
    intro h0
    rw [h0] at this
    norm_num at this
  have hstdx : npStd Toy.fivePixels ≠ 0 := by
    rw [Ne, npStd_eq_zero_iff]
    intro h
    have := h 0 (by simp [Toy.fivePixels]) 1 (by simp [Toy.fivePixels])
    norm_num at this
  obtain ⟨hk, hg⟩ := (Toy.five_fit (1 / 2)).solver hstdx hstdy (Toy.five_residuals (1 / 2) hb)
  have hout : ∃ out, robustPolyfit (fun _ _ => renormalise Toy.fivePixels (Toy.fiveLines (1 / 2))
      [-(1 / 2 / 5), 1 + 1 / 2 / 5]) Toy.fivePixels (Toy.fiveLines (1 / 2)) 1 none = .ok out := by
    unfold robustPolyfit
    dsimp only
    rw [if_neg (by tauto)]
    exact ⟨_, rfl⟩
  obtain ⟨out, hout⟩ := hout
  have hz : Toy.fivePixels.zip (Toy.fiveLines (1 / 2)) = [(0, 0), (1, 1), (2, 2), (3, 3), (4, 4 + 1 / 2)] := by
    simp [Toy.fivePixels, Toy.fiveLines]
  refine ⟨_, out, hout, C209_robust_polyfit _ _ _ hk hg none out hout ?_ ?_ ?_⟩
  · unfold InOrder
    rw [hz]
    simp only [List.mem_cons, List.not_mem_nil, or_false, forall_eq_or_imp, forall_eq]
    norm_num
  · rw [hz]
    simp only [List.mem_cons, List.not_mem_nil, or_false, forall_eq_or_imp, forall_eq]
    norm_num
  · rw [hz]
    exact ⟨(0, 0), by simp, (1, 1), by simp, by norm_num⟩

/-- The hypotheses of `C209_manual` met: three peaks, the middle line off by 3. -/
example : ∃ (s t u : Session ℚ) (m : RefitReport ℚ),
    t = (s.matchPeaks Toy.env Toy.mkern { coeff := some (true, [3100, 280]), tol := 10, minFrac := 1 / 2 }).1 ∧
    t.manualRefit Toy.env Toy.mkern {} = (u, .ok m) ∧ m.coeffs = some [3101, 280] ∧ m.atlas = [5900, 8703, 11500] ∧
    ∀ p q : ℚ, p < q → evalLow [3101, 280] p < evalLow [3101, 280] q := by
  have hc : (Toy.session [10, 20, 30] false [5900, 8703, 11500]).toOption.bind (fun s =>
      ((s.matchPeaks Toy.env Toy.mkern { coeff := some (true, [3100, 280]), tol := 10, minFrac := 1 / 2 }).1.manualRefit
        Toy.env Toy.mkern {}).2.toOption.map (fun m => (m.coeffs, m.peaks, m.atlas))) =
      some (some [3101, 280], [10, 20, 30], [5900, 8703, 11500]) := by
    decide +kernel
  cases hs : Toy.session [10, 20, 30] false [5900, 8703, 11500] with
  | error e => rw [hs] at hc; simp [Except.toOption] at hc
  | ok s =>
    rw [hs] at hc
    simp only [Except.toOption, Option.bind_some] at hc
    cases hm : (s.matchPeaks Toy.env Toy.mkern { coeff := some (true, [3100, 280]), tol := 10, minFrac := 1 / 2 }).1.manualRefit
        Toy.env Toy.mkern {} with
    | mk u o =>
      rw [hm] at hc
      cases o with
      | error e => cases hc
      | ok m =>
        have hc := Option.some.inj hc
        simp only [Prod.mk.injEq] at hc
        obtain ⟨h1, h2, h3⟩ := hc
        refine ⟨s, _, u, m, rfl, hm, h1, h3, (C209_manual Toy.env Toy.mkern _ u {} m 3101 280 hm h1 _ grows_square ?_ ?_ ?_
          ?_).2⟩
        · intro xs ys d x0 co hl hco co' hlen
          have hb := Toy.mkern_squares xs ys d x0 co hl hco
          have := hb.2 co' (hlen.trans hb.1)
          rwa [errorSquares_zip, errorSquares_zip] at this
        · rw [h2]; decide +kernel
        · rw [h2]; decide
        · unfold InOrder
          rw [h2, h3]
          decide +kernel

end Rascal
