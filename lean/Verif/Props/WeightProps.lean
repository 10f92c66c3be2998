import Verif.Props.RepeatFitProps
import Mathlib.Analysis.SpecialFunctions.Exp

/-! Property theorem C137: the weights of the candidates that `fit` gathers. -/

set_option linter.unusedSectionVars false

namespace Rascal

open Spec

section
variable {K : Type _} [Field K] [LinearOrder K] [IsStrictOrderedRing K] [FloorRing K]

/-- The candidates of a fit are gathered with the lines the fit leaves. -/
theorem fitCandidates_state (F : FitEnv K) (w : World K) (a : FitArgs K) (rnd : FitRandom K) (cs : List (Cand K))
    (h : w.fitCandidates F a rnd.uniform = some cs) :
    ∃ lines hl, w.atlasLines = .ok lines ∧ (w.fit F a rnd).1.cal.houghLines = some hl ∧
      Cal.candidates F { w.cal with fitCoeff := a.fitCoeff, houghLines := some hl } (F.kern a.fitType) lines
        a.candTol rnd.uniform = .ok cs := by
  unfold World.fitCandidates at h
  unfold World.fit
  split at h
  · simp at h
  rename_i hft
  cases hl : w.atlasLines with
  | error e => rw [hl] at h; simp at h
  | ok lines =>
    rw [hl] at h
    dsimp only at h ⊢
    rw [if_neg hft]
    unfold Cal.fitWith
    dsimp only
    obtain ⟨ht, hl', hp, hfr⟩ := ensureHough_frame F
      { w.cal with
          fitCoeff := a.fitCoeff
          ransac := { w.cal.ransac with
            sampleSize := adjustSampleSize w.cal.ransac.sampleSize lines.length a.fitDeg } }
    rw [hfr] at h ⊢
    split at h
    · simp at h
    rename_i hok
    rw [hok]
    dsimp only
    rw [(fitSearch_hough F _ lines a rnd).1]
    dsimp only at h ⊢
    cases hl' with
    | none => simp [Cal.candidates, Except.toOption] at h
    | some hl'' =>
      refine ⟨lines, hl'', rfl, rfl, ?_⟩
      unfold Cal.candidates at h ⊢
      dsimp only at h ⊢
      generalize (if w.cal.ransac.linear = true then _ else _ : PyRes (List (Cand K))) = r at h ⊢
      cases r with
      | error e => simp [Except.toOption] at h
      | ok cs' => simp only [Except.toOption, Option.some.injEq] at h; rw [h]

/-- The rows of the candidates of lines. -/
theorem candidatesLinear_rows (weight : K → K → K) (tol : K) (lines pairs : List (K × K)) :
    candRows (candidatesLinear weight tol lines pairs) = lines.flatMap (fun l =>
      (pairs.filter (fun p => decide (|l.1 * p.1 + l.2 - p.2| ≤ tol))).map (fun p =>
        (p.1, p.2, weight p.2 (l.1 * p.1 + l.2)))) := by
  rw [candidatesLinear_eq]
  unfold candRows
  rw [List.flatMap_map]
  congr 1
  funext l
  dsimp only
  generalize pairs.filter _ = s
  induction s with
  | nil => rfl
  | cons a t ih => simp only [List.map_cons, List.zip_cons_cons, ih]

/-- The rows of one shift of the baseline. -/
theorem polyCandidate_rows (weight : K → K → K) (tol : K) (arr : Bool) (peaks actual : List K) (f : K → K)
    (c : Option (Cand K)) (h : polyCandidate weight tol arr peaks actual (peaks.map f) = .ok c) :
    candRows c.toList = ((peaks.zip actual).filter (fun p => decide (|p.2 - f p.1| < tol))).map (fun p =>
      (p.1, p.2, weight p.2 (f p.1))) := by
  have ht : ∀ (x : K) (xs : List K) (m : List Bool), boolMask (x :: xs) (true :: m) = x :: boolMask xs m := by
    intro x xs m; simp [boolMask]
  have hf : ∀ (x : K) (xs : List K) (m : List Bool), boolMask (x :: xs) (false :: m) = boolMask xs m := by
    intro x xs m; simp [boolMask]
  have hz : ∀ (ps as : List K), ps.length = as.length →
      let mask := (List.zipWith (fun a p => |a - p|) as (ps.map f)).map (fun d => decide (d < tol))
      (boolMask ps mask).zip ((boolMask as mask).zip
        (List.zipWith weight (boolMask as mask) (boolMask (ps.map f) mask))) =
      ((ps.zip as).filter (fun p => decide (|p.2 - f p.1| < tol))).map (fun p => (p.1, p.2, weight p.2 (f p.1))) ∧
      (mask.any id = false → (ps.zip as).filter (fun p => decide (|p.2 - f p.1| < tol)) = []) := by
    intro ps
    induction ps with
    | nil => intro as _; cases as <;> simp [boolMask]
    | cons p ps ih =>
      intro as hlen
      cases as with
      | nil => simp at hlen
      | cons y as =>
        obtain ⟨i1, i2⟩ := ih as (by simpa using hlen)
        dsimp only at i1 i2 ⊢
        simp only [List.map_cons, List.zipWith_cons_cons, List.zip_cons_cons, List.filter_cons]
        by_cases hd : |y - f p| < tol
        · simp only [hd, decide_true, ht, ite_true, List.zipWith_cons_cons, List.zip_cons_cons, i1,
            List.map_cons, List.any_cons, id, Bool.true_or]
          simp
        · simp only [hd, decide_false, hf, List.any_cons, id, Bool.false_or, Bool.false_eq_true, if_false]
          exact ⟨i1, i2⟩
  unfold polyCandidate at h
  dsimp only at h
  rw [List.length_map] at h
  split at h
  · rename_i hlen
    obtain ⟨z1, z2⟩ := hz peaks actual hlen.symm
    split at h
    · split at h
      · simp only [Except.ok.injEq] at h
        subst h
        simpa [candRows] using z1
      · simp at h
    · rename_i hm
      simp only [Except.ok.injEq] at h
      subst h
      rw [z2 (by simpa using hm)]
      rfl
  · split at h
    · split at h
      · simp at h
      · rename_i hm
        simp only [Except.ok.injEq] at h
        subst h
        have : (peaks.zip actual).filter (fun p => decide (|p.2 - f p.1| < tol)) = [] := by
          rw [List.filter_eq_nil_iff]
          rintro ⟨p, y⟩ hp hlt
          apply hm
          rw [List.any_eq_true]
          obtain ⟨h1, h2⟩ := List.of_mem_zip hp
          refine ⟨true, ?_, rfl⟩
          rw [List.mem_map]
          refine ⟨|y - f p|, ?_, by simpa using hlt⟩
          rw [List.mem_flatMap]
          exact ⟨y, h2, List.mem_map.2 ⟨f p, List.mem_map.2 ⟨p, h1, rfl⟩, rfl⟩⟩
        rw [this]
        rfl
    · simp at h

/-- The rows of the candidates near a shifted baseline. -/
theorem candidatesPoly_rows (weight : K → K → K) (tol : K) (arr : Bool) (peaks actual : List K) (f : K → K)
    (ds : List K) (cs : List (Cand K)) (h : candidatesPoly weight tol arr peaks actual f ds = .ok cs) :
    candRows cs = ds.flatMap (fun d => ((peaks.zip actual).filter (fun p =>
      decide (|p.2 - (f p.1 + d)| < tol))).map (fun p => (p.1, p.2, weight p.2 (f p.1 + d)))) := by
  induction ds generalizing cs with
  | nil => simp only [candidatesPoly, Except.ok.injEq] at h; subst h; rfl
  | cons d ds ih =>
    unfold candidatesPoly at h
    split at h
    · simp at h
    rename_i c hc
    split at h
    · simp at h
    rename_i cs' hcs
    simp only [Except.ok.injEq] at h
    subst h
    have h1 := polyCandidate_rows weight tol arr peaks actual (fun p => f p + d) c hc
    rw [List.flatMap_cons, ← ih cs' hcs, ← h1]
    simp [candRows]

end

/-! ### C137 -/

/-- Height at distance `d` of a bell of width `s` (the small number keeps the denominator away from zero). -/
noncomputable def Spec.bell (d s : ℝ) : ℝ := Real.exp (-(d ^ 2) / (2 * s ^ 2 + 1e-9))

/-- Full statement of C137, as announced in the code: a candidate at the edge of the tolerance has half the
weight. -/
def C137_Statement : Prop :=
  ∀ (F : FitEnv ℝ) (w : World ℝ) (a : FitArgs ℝ) (rnd : FitRandom ℝ) (cs : List (Cand ℝ)) (g b p y v : ℝ),
    F.gauss = (fun x x0 s => gaussFn x 1 x0 s) → w.cal.ransac.linear = true →
    w.fitCandidates F a rnd.uniform = some cs → (w.fit F a rnd).1.cal.houghLines = some [(g, b)] →
    (p, y, v) ∈ candRows cs → 1 ≤ w.cal.hough.rangeTol → 0 ≤ w.cal.hough.linTol →
    |g * p + b - y| = w.cal.hough.rangeTol + w.cal.hough.linTol →
    |v - 1 / 2| ≤ 1 / 100

/-- C137, partial: the candidates of a linear fit are exactly the pairs within the candidate tolerance of a
line, with the weight of a bell 1.1775 times as wide as both tolerances together.  The weight is in (0, 1],
is 1 exactly on the line, is above three fifths up to the edge of the tolerances and below three quarters
from there on.  Missing: one half at the edge. -/
theorem C137_linear_partial (F : FitEnv ℝ) (w : World ℝ) (a : FitArgs ℝ) (rnd : FitRandom ℝ) (cs : List (Cand ℝ))
    (hg : F.gauss = (fun x x0 s => gaussFn x 1 x0 s)) (hlin : w.cal.ransac.linear = true)
    (h : w.fitCandidates F a rnd.uniform = some cs) :
    ∃ hl, (w.fit F a rnd).1.cal.houghLines = some hl ∧
      let T := w.cal.hough.rangeTol + w.cal.hough.linTol
      (∀ p y v, (p, y, v) ∈ candRows cs ↔ ∃ pairs l, w.cal.pairs = some (.array pairs) ∧ (p, y) ∈ pairs ∧ l ∈ hl ∧
        |l.1 * p + l.2 - y| ≤ a.candTol ∧ v = Spec.bell (l.1 * p + l.2 - y) (T * 1.1775)) ∧
      ∀ d : ℝ, 0 < Spec.bell d (T * 1.1775) ∧ Spec.bell d (T * 1.1775) ≤ 1 ∧
        (Spec.bell d (T * 1.1775) = 1 ↔ d = 0) ∧
        (∀ d', |d| < |d'| → Spec.bell d' (T * 1.1775) < Spec.bell d (T * 1.1775)) ∧
        (|d| ≤ T → 3 / 5 < Spec.bell d (T * 1.1775)) ∧
        (1 / 100 ≤ T → T ≤ |d| → Spec.bell d (T * 1.1775) < 3 / 4) := by
  obtain ⟨lines, hl, -, hhl, hc⟩ := fitCandidates_state F w a rnd cs h
  refine ⟨hl, hhl, ?_⟩
  dsimp only
  generalize hT : w.cal.hough.rangeTol + w.cal.hough.linTol = T
  constructor
  · unfold Cal.candidates at hc
    dsimp only at hc
    rw [if_pos hlin] at hc
    intro p y v
    cases hp : w.cal.pairs with
    | none => rw [hp] at hc; simp at hc
    | some ps =>
      rw [hp] at hc
      cases ps with
      | noColumns =>
        dsimp only at hc
        split at hc
        · simp only [Except.ok.injEq] at hc
          subst hc
          simp [candRows]
        · simp at hc
      | array pairs =>
        simp only [Except.ok.injEq] at hc
        rw [← hc, candidatesLinear_rows, hT, hg]
        simp only [List.mem_flatMap, List.mem_map, List.mem_filter, decide_eq_true_eq, Prod.mk.injEq,
          Option.some.injEq, PairStore.array.injEq]
        have hb : ∀ (l : ℝ × ℝ) (p y : ℝ), gaussFn y 1 (l.1 * p + l.2) (T * (11775 / 10000)) =
            Spec.bell (l.1 * p + l.2 - y) (T * 1.1775) := by
          intro l p y
          unfold gaussFn Spec.bell
          rw [one_mul]
          congr 2
          · ring
          · norm_num
        constructor
        · rintro ⟨l, hll, q, ⟨hq, htol⟩, rfl, rfl, rfl⟩
          exact ⟨pairs, l, rfl, hq, hll, htol, hb l q.1 q.2⟩
        · rintro ⟨_, l, rfl, hq, hll, htol, rfl⟩
          exact ⟨l, hll, (p, y), ⟨hq, htol⟩, rfl, rfl, hb l p y⟩
  · intro d
    have hden : (0 : ℝ) < 2 * (T * 1.1775) ^ 2 + 1e-9 := by positivity
    unfold Spec.bell
    refine ⟨Real.exp_pos _, ?_, ?_, ?_, ?_, ?_⟩
    · rw [Real.exp_le_one_iff]
      exact div_nonpos_of_nonpos_of_nonneg (by linarith [sq_nonneg d]) hden.le
    · rw [Real.exp_eq_one_iff, div_eq_zero_iff]
      constructor
      · rintro (h0 | h0)
        · exact pow_eq_zero_iff (two_ne_zero) |>.1 (by linarith)
        · exact absurd h0 hden.ne'
      · rintro rfl; left; norm_num
    · intro d' hd
      rw [Real.exp_lt_exp]
      apply div_lt_div_of_pos_right _ hden
      have := sq_lt_sq.2 hd
      linarith
    · intro hd
      have h1 := Real.add_one_le_exp (-(d ^ 2) / (2 * (T * 1.1775) ^ 2 + 1e-9))
      refine lt_of_lt_of_le ?_ h1
      have hsq : d ^ 2 ≤ T ^ 2 := by rw [sq_le_sq]; exact hd.trans (le_abs_self T)
      have : -(2 / 5) < -(d ^ 2) / (2 * (T * 1.1775) ^ 2 + 1e-9) := by
        rw [lt_div_iff₀ hden]
        nlinarith [sq_nonneg T]
      linarith
    · intro hT' hd
      have hx : (1 / 3 : ℝ) < d ^ 2 / (2 * (T * 1.1775) ^ 2 + 1e-9) := by
        rw [lt_div_iff₀ hden]
        have hsq : T ^ 2 ≤ d ^ 2 := by
          rw [sq_le_sq, abs_of_nonneg (by linarith : (0:ℝ) ≤ T)]; exact hd
        have : (1 / 100 : ℝ) ^ 2 ≤ T ^ 2 := by gcongr
        norm_num at this ⊢
        nlinarith
      have h1 := Real.add_one_le_exp (d ^ 2 / (2 * (T * 1.1775) ^ 2 + 1e-9))
      rw [neg_div, Real.exp_neg, inv_lt_comm₀ (Real.exp_pos _) (by norm_num)]
      refine lt_of_lt_of_le ?_ h1
      linarith

/-- The candidates of a polynomial fit: each Hough line stands for one shift of the baseline by at most
`range_tolerance` either way; peaks and atlas lines are compared position by position, and the bell has the
width `range_tolerance`. -/
theorem C137_polynomial_partial (F : FitEnv ℝ) (w : World ℝ) (a : FitArgs ℝ) (rnd : FitRandom ℝ)
    (cs : List (Cand ℝ)) (hg : F.gauss = (fun x x0 s => gaussFn x 1 x0 s)) (hlin : w.cal.ransac.linear = false)
    (h : w.fitCandidates F a rnd.uniform = some cs) :
    ∃ hl lines co, (w.fit F a rnd).1.cal.houghLines = some hl ∧ w.atlasLines = .ok lines ∧ a.fitCoeff = some co ∧
      let f := (F.kern a.fitType).polyval co
      let R := w.cal.hough.rangeTol
      (∀ p y v, (p, y, v) ∈ candRows cs ↔ ∃ i < hl.length, (p, y) ∈ w.cal.peaks.zip lines ∧
        |y - (f p + R * (2 * rnd.uniform i - 1))| < a.candTol ∧
        v = Spec.bell (y - (f p + R * (2 * rnd.uniform i - 1))) R) ∧
      ∀ i, 0 ≤ R → 0 ≤ rnd.uniform i → rnd.uniform i < 1 → |R * (2 * rnd.uniform i - 1)| ≤ R := by
  obtain ⟨lines, hl, hal, hhl, hc⟩ := fitCandidates_state F w a rnd cs h
  unfold Cal.candidates at hc
  dsimp only at hc
  rw [if_neg (by simp [hlin])] at hc
  cases hco : a.fitCoeff with
  | none => rw [hco] at hc; simp at hc
  | some co =>
    rw [hco] at hc
    refine ⟨hl, lines, co, hhl, hal, rfl, ?_⟩
    dsimp only
    constructor
    · intro p y v
      have hr := candidatesPoly_rows _ _ _ _ _ _ _ _ hc
      rw [hr, hg]
      simp only [List.mem_flatMap, List.mem_map, List.mem_filter, decide_eq_true_eq, Prod.mk.injEq,
        List.mem_range]
      have hb : ∀ z y R : ℝ, gaussFn y 1 z R = Spec.bell (y - z) R := by
        intro z y R
        unfold gaussFn Spec.bell
        rw [one_mul]
      have hs : ∀ i, rnd.uniform i * w.cal.hough.rangeTol * 2 - w.cal.hough.rangeTol =
          w.cal.hough.rangeTol * (2 * rnd.uniform i - 1) := fun i => by ring
      constructor
      · rintro ⟨d, ⟨i, hi, rfl⟩, q, ⟨hq, htol⟩, rfl, rfl, rfl⟩
        rw [hs] at htol ⊢
        exact ⟨i, hi, hq, htol, hb _ _ _⟩
      · rintro ⟨i, hi, hq, htol, rfl⟩
        refine ⟨_, ⟨i, hi, rfl⟩, (p, y), ⟨hq, ?_⟩, rfl, rfl, ?_⟩
        · rw [hs]; exact htol
        · rw [hs]; exact hb _ _ _
    · intro i hR h0 h1
      rw [abs_mul, abs_of_nonneg hR]
      have : |2 * rnd.uniform i - 1| ≤ 1 := by rw [abs_le]; constructor <;> linarith
      nlinarith

/-- Two peaks, two lines, and the Hough line `10 x + 4800` with a range tolerance of 100. -/
noncomputable def Toy.realWorld (linear : Bool) : World ℝ :=
  { atlases := [⟨[⟨5000, "Xe", 1, none⟩, ⟨6000, "Xe", 1, none⟩], none, none, 0⟩]
    cal :=
      { peaks := [10, 110], peaksAreArray := true, props := ⟨200, (List.range 200).map (fun n => (n : ℝ)), .matplotlib, true, false⟩
        hough := ⟨5, 4, 4, 4800, 6800, 100, 0, 4700, 4900, .fin 9, .fin 11⟩
        ransac := { RansacSet.init with linear := linear }, atlas := some 0, candTol := some 150,
        constrainPoly := false,
        pairs := some (.array [(10, 5000), (10, 6000), (110, 5000), (110, 6000)]), ht := Hough.init,
        houghLines := some [(10, 4800)], houghPoints := some (.array [(10, 4800)]), known := none,
        matchedPeaks := [], matchedAtlas := [], fitCoeff := none, rms := none, residual := none,
        peakUtil := none, atlasUtil := none } }

/-- The Gaussian of the code; the other routines play no part here. -/
noncomputable def Toy.realEnv : FitEnv ℝ :=
  { kern := fun _ => ⟨fun _ _ _ => .error .valueError, fun co x => co.getD 0 0 + co.getD 1 0 * x,
      fun _ _ _ => .error .valueError, Real.sqrt, fun _ _ _ => .error .valueError⟩
    gauss := fun x x0 s => gaussFn x 1 x0 s, argsortK := fun l => List.range l.length,
    argsortN := fun l => List.range l.length, oneDim := true }

theorem Toy.realWorld_lines (l : Bool) (a : FitArgs ℝ) (ha : a.fitType = .poly) (rnd : FitRandom ℝ) :
    ((Toy.realWorld l).fit Toy.realEnv a rnd).1.cal.houghLines = some [(10, 4800)] := by
  unfold World.fit
  rw [if_neg (by rw [ha]; decide)]
  exact (fitSearch_hough Toy.realEnv _ _ a rnd).1

theorem Toy.realWorld_linear (rnd : FitRandom ℝ) :
    ∃ cs, (Toy.realWorld true).fitCandidates Toy.realEnv { candTol := 150 } rnd.uniform = some cs ∧
      (10, 5000, Spec.bell (-100) (100 * 1.1775)) ∈ candRows cs := by
  refine ⟨_, rfl, ?_⟩
  obtain ⟨hl, h1, h2, -⟩ := C137_linear_partial Toy.realEnv (Toy.realWorld true) { candTol := 150 } rnd _ rfl rfl rfl
  rw [Toy.realWorld_lines true _ rfl rnd] at h1
  cases h1
  rw [h2]
  refine ⟨_, _, rfl, by simp, List.mem_singleton.2 rfl, ?_, ?_⟩
  · norm_num
  · simp only [Toy.realWorld]
    norm_num

/-- C137 is false: the width is multiplied by 1.1775 where it should be divided, so the weight at the edge is
about 0.7. -/
theorem C137_refuted : ¬ C137_Statement := by
  intro h
  let rnd : FitRandom ℝ := ⟨fun _ => 0, []⟩
  obtain ⟨cs, hcs, hm⟩ := Toy.realWorld_linear rnd
  have h1 := h Toy.realEnv (Toy.realWorld true) { candTol := 150 } rnd cs 10 4800 10 5000 _ rfl rfl hcs
    (Toy.realWorld_lines true _ rfl rnd) hm (by norm_num [Toy.realWorld]) (by norm_num [Toy.realWorld])
    (by norm_num [Toy.realWorld])
  obtain ⟨_, -, -, hb⟩ := C137_linear_partial Toy.realEnv (Toy.realWorld true) { candTol := 150 } rnd cs rfl rfl hcs
  have h2 := (hb (-100)).2.2.2.2.1 (by norm_num [Toy.realWorld])
  have hT : (Toy.realWorld true).cal.hough.rangeTol + (Toy.realWorld true).cal.hough.linTol = 100 := by
    norm_num [Toy.realWorld]
  rw [hT] at h2
  have := (abs_le.1 h1).2
  linarith

/-- The hypotheses of `C137_linear_partial` are met, with a candidate at the edge of the tolerance. -/
example (rnd : FitRandom ℝ) : Toy.realEnv.gauss = (fun x x0 s => gaussFn x 1 x0 s) ∧
    (Toy.realWorld true).cal.ransac.linear = true ∧
    ∃ cs, (Toy.realWorld true).fitCandidates Toy.realEnv { candTol := 150 } rnd.uniform = some cs ∧
      (10, 5000, Spec.bell (-100) (100 * 1.1775)) ∈ candRows cs :=
  ⟨rfl, rfl, Toy.realWorld_linear rnd⟩

/-- The hypotheses of `C137_polynomial_partial` are met: the baseline `4800 + 10 x` shifted up by 50 is within 150 of
both lines. -/
example : ∃ cs, (Toy.realWorld false).fitCandidates Toy.realEnv { candTol := 150, fitCoeff := some [4800, 10] }
      (fun _ => 3 / 4) = some cs ∧
    (10, 5000, Spec.bell 50 100) ∈ candRows cs ∧ (110, 6000, Spec.bell 50 100) ∈ candRows cs := by
  let rnd : FitRandom ℝ := ⟨fun _ => 3 / 4, []⟩
  cases hc : (Toy.realWorld false).fitCandidates Toy.realEnv { candTol := 150, fitCoeff := some [4800, 10] }
      rnd.uniform with
  | none =>
    exfalso
    revert hc
    simp [World.fitCandidates, World.atlasLines, Toy.realWorld, Atlas.getLines, Cal.ensureHough, Cal.candidates,
      candidatesPoly, polyCandidate, Except.toOption, Toy.realEnv, RansacSet.init]
    rw [if_pos (by left; norm_num [rnd])]
    simp
  | some cs =>
    refine ⟨cs, rfl, ?_⟩
    obtain ⟨hl, lines, co, h1, h2, h3, h4, -⟩ := C137_polynomial_partial Toy.realEnv (Toy.realWorld false)
      { candTol := 150, fitCoeff := some [4800, 10] } rnd cs rfl rfl hc
    rw [Toy.realWorld_lines false _ rfl rnd] at h1
    cases h1
    cases h3
    change Except.ok [5000, 6000] = _ at h2
    cases h2
    rw [h4, h4]
    refine ⟨⟨0, by simp, by simp [Toy.realWorld], ?_, ?_⟩, ⟨0, by simp, by simp [Toy.realWorld], ?_, ?_⟩⟩
    all_goals simp only [Toy.realWorld, Toy.realEnv, rnd, List.getD_cons_zero, List.getD_cons_succ]
    all_goals norm_num

end Rascal
