import Verif.Props.ModelFns
import Verif.Props.LeastSquaresProps
import Mathlib.LinearAlgebra.Lagrange
import Mathlib.Tactic.Linarith
import Mathlib.Tactic.NormNum

/-! Property theorems C196 and C197: wrong wavelengths and noise in `robust_polyfit`. -/

set_option linter.unusedSectionVars false

namespace Rascal

/-- The sum of the squared residuals. -/
noncomputable def Spec.sumSquares (q x y : List ℝ) : ℝ := ((Spec.residuals q x y).map (fun r => r ^ 2)).sum

/-- The polynomial has the smallest sum of squared residuals among those of its degree: an ordinary least-squares fit. -/
def Spec.OrdinaryFit (x y : List ℝ) (d : Nat) (q : List ℝ) : Prop :=
  q.length = d + 1 ∧ ∀ q' : List ℝ, q'.length = d + 1 → Spec.sumSquares q x y ≤ Spec.sumSquares q' x y

open Spec

theorem residuals_zip (q x y : List ℝ) : residuals q x y = (x.zip y).map (fun p => p.2 - evalLow q p.1) := by
  unfold residuals
  rw [List.zip, List.map_zipWith]

theorem sumSquares_zip (q x y : List ℝ) :
    sumSquares q x y = ((x.zip y).map (fun p => (p.2 - evalLow q p.1) ^ 2)).sum := by
  unfold sumSquares
  rw [residuals_zip, List.map_map]
  rfl

theorem evalLow_mix (t : ℝ) : ∀ (q h : List ℝ), q.length = h.length → ∀ x,
    evalLow (List.zipWith (fun a b => a + t * (b - a)) q h) x = evalLow q x + t * (evalLow h x - evalLow q x)
  | [], [], _, x => by simp [evalLow]
  | [], _ :: _, hl, _ => by simp at hl
  | _ :: _, [], hl, _ => by simp at hl
  | a :: q, b :: h, hl, x => by
    rw [List.zipWith_cons_cons, evalLow, evalLow, evalLow, evalLow_mix t q h (by simpa using hl)]
    ring

/-- The residuals of a least-squares fit are orthogonal to all polynomials of the degree. -/
theorem Spec.OrdinaryFit.orthogonal {x y : List ℝ} {d : Nat} {q : List ℝ} (hq : OrdinaryFit x y d q) (h : List ℝ)
    (hh : h.length = d + 1) :
    ((x.zip y).map (fun p => (p.2 - evalLow q p.1) * (evalLow h p.1 - evalLow q p.1))).sum = 0 := by
  set A := ((x.zip y).map (fun p => (p.2 - evalLow q p.1) * (evalLow h p.1 - evalLow q p.1))).sum with hA
  set B := ((x.zip y).map (fun p => (evalLow h p.1 - evalLow q p.1) ^ 2)).sum with hB
  have hB0 : 0 ≤ B := by
    apply List.sum_nonneg
    intro v hv
    obtain ⟨p, _, rfl⟩ := List.mem_map.1 hv
    exact sq_nonneg _
  have key : ∀ t : ℝ, 0 ≤ A * (-2 * t) + B * t ^ 2 := by
    intro t
    have hmin := hq.2 (List.zipWith (fun a b => a + t * (b - a)) q h) (by rw [List.length_zipWith, hq.1, hh, min_self])
    rw [sumSquares_zip, sumSquares_zip] at hmin
    have e : ((x.zip y).map (fun p => (p.2 - evalLow (List.zipWith (fun a b => a + t * (b - a)) q h) p.1) ^ 2)).sum =
        ((x.zip y).map (fun p => (p.2 - evalLow q p.1) ^ 2)).sum + A * (-2 * t) + B * t ^ 2 := by
      rw [hA, hB, ← listSum_mul, ← listSum_mul, ← listSum_add, ← listSum_add]
      congr 1
      apply List.map_congr_left
      intro p _
      rw [evalLow_mix t q h (by rw [hq.1, hh])]
      ring
    rw [e] at hmin
    linarith
  rcases eq_or_lt_of_le hB0 with h0 | hpos
  · have h1 := key 1
    have h2 := key (-1)
    rw [← h0] at h1 h2
    linarith
  · have := key (A / B)
    have e : A * (-2 * (A / B)) + B * (A / B) ^ 2 = - (A ^ 2 / B) := by
      field_simp
      ring
    rw [e] at this
    have h3 : A ^ 2 / B ≤ 0 := by linarith
    have h4 : 0 ≤ A ^ 2 / B := by positivity
    have h5 : A ^ 2 / B = 0 := le_antisymm h3 h4
    rcases div_eq_zero_iff.1 h5 with h6 | h6
    · exact pow_eq_zero_iff (two_ne_zero) |>.1 h6
    · exact absurd h6 hpos.ne'

/-- The loss stays above its tangents in the quadratic part. -/
theorem huber_tangent (r0 r : ℝ) (h0 : |r0| < 1) (hne : r ≠ r0) : r0 ^ 2 + 2 * r0 * (r - r0) < huber r := by
  have hd : 0 < (r - r0) ^ 2 := by
    have : r - r0 ≠ 0 := sub_ne_zero.2 hne
    positivity
  obtain ⟨ha, hb⟩ := abs_lt.1 h0
  unfold huber
  split
  · nlinarith
  · rename_i h
    have h1 : 1 < |r| := by
      by_contra hc
      push Not at hc
      exact h (by rw [← sq_abs]; nlinarith [abs_nonneg r])
    rcases abs_cases r with ⟨he, _⟩ | ⟨he, _⟩
    · rw [he] at h1 ⊢
      nlinarith [mul_pos (sub_pos.2 hb) (show 0 < 2 * r - 1 - r0 by linarith)]
    · rw [he] at h1 ⊢
      nlinarith [mul_pos (show 0 < 1 + r0 by linarith) (show 0 < -2 * r - 1 + r0 by linarith)]

theorem huber_tangent_le (r0 r : ℝ) (h0 : |r0| < 1) : r0 ^ 2 + 2 * r0 * (r - r0) ≤ huber r := by
  by_cases h : r = r0
  · subst h
    unfold huber
    rw [if_pos]
    · linarith
    · rw [← sq_abs]
      nlinarith [abs_nonneg r]
  · exact (huber_tangent r0 r h0 h).le

theorem totalLoss_zip (q x y : List ℝ) (s : ℝ) :
    totalLoss huber ((residuals q x y).map (· / s)) =
      ((x.zip y).map (fun p => huber ((p.2 - evalLow q p.1) / s))).sum := by
  unfold totalLoss
  rw [residuals_zip, List.map_map, List.map_map]
  rfl

/-- The tangent at the least-squares fit has the value of the loss there. -/
theorem Spec.OrdinaryFit.tangent {x y : List ℝ} {d : Nat} {q : List ℝ} (hq : OrdinaryFit x y d q) (s : ℝ) (h : List ℝ)
    (hh : h.length = d + 1) (hr : ∀ r ∈ residuals q x y, |r / s| < 1) :
    totalLoss huber ((residuals q x y).map (· / s)) =
      ((x.zip y).map (fun p => ((p.2 - evalLow q p.1) / s) ^ 2 + 2 * ((p.2 - evalLow q p.1) / s) *
        ((p.2 - evalLow h p.1) / s - (p.2 - evalLow q p.1) / s))).sum := by
  rw [totalLoss_zip]
  have ho := hq.orthogonal h hh
  have e : ∀ p : ℝ × ℝ, ((p.2 - evalLow q p.1) / s) ^ 2 + 2 * ((p.2 - evalLow q p.1) / s) *
        ((p.2 - evalLow h p.1) / s - (p.2 - evalLow q p.1) / s) =
      ((p.2 - evalLow q p.1) / s) ^ 2 + (p.2 - evalLow q p.1) * (evalLow h p.1 - evalLow q p.1) * (-2 / s / s) := by
    intro p
    ring
  simp only [e]
  rw [listSum_add, listSum_mul, ho, zero_mul, add_zero]
  congr 1
  apply List.map_congr_left
  intro p hp
  have := hr (p.2 - evalLow q p.1) (by rw [residuals_zip]; exact List.mem_map_of_mem hp)
  unfold huber
  rw [if_pos]
  rw [← sq_abs]
  nlinarith [abs_nonneg ((p.2 - evalLow q p.1) / s)]

/-- A least-squares fit with residuals below the spread has the smallest robust loss. -/
theorem Spec.OrdinaryFit.minimal {x y : List ℝ} {d : Nat} {q : List ℝ} (hq : OrdinaryFit x y d q) (s : ℝ) (h : List ℝ)
    (hh : h.length = d + 1) (hr : ∀ r ∈ residuals q x y, |r / s| < 1) :
    totalLoss huber ((residuals q x y).map (· / s)) ≤ totalLoss huber ((residuals h x y).map (· / s)) := by
  rw [hq.tangent s h hh hr, totalLoss_zip]
  apply List.sum_le_sum
  intro p hp
  exact huber_tangent_le _ _ (hr _ (by rw [residuals_zip]; exact List.mem_map_of_mem hp))

/-- ... and no other polynomial has. -/
theorem Spec.OrdinaryFit.only {x y : List ℝ} {d : Nat} {q : List ℝ} (hq : OrdinaryFit x y d q) (s : ℝ) (hs : s ≠ 0) (h : List ℝ)
    (hh : h.length = d + 1) (hr : ∀ r ∈ residuals q x y, |r / s| < 1)
    (hm : totalLoss huber ((residuals h x y).map (· / s)) ≤ totalLoss huber ((residuals q x y).map (· / s))) :
    ∀ p ∈ x.zip y, evalLow h p.1 = evalLow q p.1 := by
  rw [hq.tangent s h hh hr, totalLoss_zip] at hm
  by_contra hc
  push Not at hc
  obtain ⟨p, hp, hne⟩ := hc
  refine absurd hm (not_le.2 ?_)
  apply List.sum_lt_sum
  · intro p' hp'
    exact huber_tangent_le _ _ (hr _ (by rw [residuals_zip]; exact List.mem_map_of_mem hp'))
  · refine ⟨p, hp, huber_tangent _ _ (hr _ (by rw [residuals_zip]; exact List.mem_map_of_mem hp)) ?_⟩
    intro he
    apply hne
    have := congrArg (· * s) he
    simp only [div_mul_cancel₀ _ hs] at this
    linarith

theorem robustPolyfit_spread (solve : (List ℝ → PyRes (List ℝ)) → List ℝ → List ℝ) (x y : List ℝ) (d : Nat)
    (x0 : Option (List ℝ)) (out : List ℝ) (h : robustPolyfit solve x y d x0 = .ok out) : npStd y ≠ 0 := by
  intro h0
  unfold robustPolyfit at h
  cases x0 with
  | none => simp [h0] at h
  | some p =>
    simp only [h0, true_or, if_true] at h
    split at h
    · cases h
    · split at h <;> cases h

/-- C196 (part).  `robust_polyfit` is an ordinary least-squares fit whenever the residuals of the least-squares fit are below
the standard deviation of the wavelengths themselves. -/
theorem C196_least_squares_partial (solve : (List ℝ → PyRes (List ℝ)) → List ℝ → List ℝ) (x y : List ℝ) (d : Nat)
    (hs : KeepsLength solve d) (ho : GlobalMinimiser huber solve x y d) (x0 : Option (List ℝ)) (out : List ℝ)
    (h : robustPolyfit solve x y d x0 = .ok out) (hl : x.length = y.length) (hd : d < x.toFinset.card) (q : List ℝ)
    (hq : OrdinaryFit x y d q) (hr : ∀ r ∈ residuals q x y, |r| < npStd y) : out = q := by
  have hy := robustPolyfit_spread solve x y d x0 out h
  have hpos : 0 < npStd y := lt_of_le_of_ne (npStd_nonneg y) (Ne.symm hy)
  obtain ⟨p0, hp0, hlen, _⟩ := C21_denormalisation solve x y d hs x0 out h
  have hr' : ∀ r ∈ residuals q x y, |r / npStd y| < 1 := by
    intro r hm
    rw [abs_div, abs_of_pos hpos, div_lt_one hpos]
    exact hr r hm
  have hopt := C22_optimal huber solve x y d hs ho x0 out h q hq.1
  have hall := hq.only (npStd y) hy out hlen hr' hopt
  apply evalLow_ext out q (by rw [hlen, hq.1]) x (by omega)
  intro xi hxi
  obtain ⟨i, hi, rfl⟩ := List.mem_iff_getElem.1 hxi
  exact hall (x[i], y[i]'(hl ▸ hi)) (List.mem_iff_getElem.2 ⟨i, by simp [← hl, hi], by simp⟩)

/-- A least-squares fit exists if there are enough different abscissae. -/
theorem ordinaryFit_exists (x y : List ℝ) (d : Nat) (hl : x.length = y.length) (hd : d < x.toFinset.card) :
    ∃ q, OrdinaryFit x y d q := by
  have hf : (x.zip y).map Prod.fst = x := List.map_fst_zip hl.le
  have hn : d < ((x.zip y).map Prod.fst).dedup.length := by
    rw [hf]
    rwa [List.card_toFinset] at hd
  have ev : ∀ (v : Fin (d + 1) → ℝ) t, evalLow (List.ofFn v) t = polyAt v t := by
    intro v t
    have hfold : ∀ l : List ℝ, evalLow l t = l.foldr (fun a b => a + t * b) 0 := by
      intro l
      induction l with
      | nil => rfl
      | cons a l ih => rw [evalLow, ih]; rfl
    rw [hfold, foldr_ofFn]
    rfl
  have hsq : ∀ v : Fin (d + 1) → ℝ, sumSquares (List.ofFn v) x y = squares (x.zip y) v := by
    intro v
    rw [sumSquares_zip]
    simp only [ev]
    rfl
  refine ⟨List.ofFn (lsqVec (x.zip y) d), by simp, fun q' hq' => ?_⟩
  obtain ⟨v, rfl⟩ : ∃ v : Fin (d + 1) → ℝ, q' = List.ofFn v :=
    ⟨fun i => q'[i]'(by omega), by
      apply List.ext_getElem
      · simp [hq']
      · intro i h1 h2
        rw [List.getElem_ofFn]
        rfl⟩
  rw [hsq, hsq]
  exact lsqVec_optimal _ _ hn v

/-- C196 (false).  One wrong wavelength among pairs that otherwise lie on the calibration `q` can only move the answer of
`robust_polyfit` by a limited amount, however wrong it is. -/
def C196_Statement : Prop :=
  ∀ (x q : List ℝ) (d i : Nat), q.length = d + 1 → d + 1 < x.toFinset.card → i < x.length →
    ∃ M : ℝ, ∀ (wrong : ℝ) (solve : (List ℝ → PyRes (List ℝ)) → List ℝ → List ℝ), KeepsLength solve d →
      GlobalMinimiser huber solve x ((x.map (evalLow q)).set i wrong) d → ∀ (x0 : Option (List ℝ)) (out : List ℝ),
      robustPolyfit solve x ((x.map (evalLow q)).set i wrong) d x0 = .ok out →
      ∀ t ∈ x, |evalLow out t - evalLow q t| ≤ M

/-- A solver that knows the least-squares fit is a global minimiser. -/
theorem Spec.OrdinaryFit.solver {x y : List ℝ} {d : Nat} {q : List ℝ} (hq : OrdinaryFit x y d q) (hx : npStd x ≠ 0)
    (hy : npStd y ≠ 0) (hr : ∀ r ∈ residuals q x y, |r| < npStd y) :
    KeepsLength (fun _ _ => renormalise x y q) d ∧ GlobalMinimiser huber (fun _ _ => renormalise x y q) x y d := by
  have hlen : (renormalise x y q).length = d + 1 := by simp [renormalise, hq.1]
  have hpos : 0 < npStd y := lt_of_le_of_ne (npStd_nonneg y) (Ne.symm hy)
  have hr' : ∀ r ∈ residuals q x y, |r / npStd y| < 1 := by
    intro r hm
    rw [abs_div, abs_of_pos hpos, div_lt_one hpos]
    exact hr r hm
  have cost : ∀ a b : List ℝ, a.length = d + 1 →
      (∀ t, evalLow b t = npStd y * evalHigh a (t / npStd x)) → ∀ r,
      polyCost a (x.map (· / npStd x)) (y.map (· / npStd y)) d = .ok r → r = (residuals b x y).map (· / npStd y) := by
    intro a b ha hb r h
    rw [C19_residuals _ _ _ d ha] at h
    rw [← Except.ok.inj h]
    unfold residuals
    rw [List.zipWith_map, List.map_zipWith]
    congr 1
    funext xi yi
    rw [hb]
    field_simp
  refine ⟨fun _ _ _ => hlen, ?_⟩
  intro p0 a r r' _ ha h1 h2
  have hb : ∀ t, evalLow q t = npStd y * evalHigh (renormalise x y q) (t / npStd x) := by
    intro t
    conv_lhs => rw [← denormalise_renormalise x y d q hq.1 (Or.inl hx) hy]
    exact evalLow_denormalise x y d _ hlen t
  rw [cost _ q hlen hb r h1, cost a (denormalise x y d a) ha (fun t => evalLow_denormalise x y d a ha t) r' h2]
  exact hq.minimal (npStd y) _ (by rw [denormalise_length, ha]) hr'

/-- The pixels of the counterexample. -/
def Toy.fivePixels : List ℝ := [0, 1, 2, 3, 4]

/-- The wavelengths: the last one is wrong by `b`. -/
noncomputable def Toy.fiveLines (b : ℝ) : List ℝ := [0, 1, 2, 3, 4 + b]

/-- The least-squares fit through them. -/
theorem Toy.five_fit (b : ℝ) : OrdinaryFit Toy.fivePixels (Toy.fiveLines b) 1 [-(b / 5), 1 + b / 5] := by
  refine ⟨rfl, ?_⟩
  intro q' hq'
  match q', hq' with
  | [u, v], _ =>
    rw [sumSquares_zip, sumSquares_zip]
    simp only [Toy.fivePixels, Toy.fiveLines, List.zip_cons_cons, List.zip_nil_right, List.map_cons, List.map_nil,
      List.sum_cons, List.sum_nil, evalLow]
    nlinarith [sq_nonneg ((u + b / 5) + 2 * (v - 1 - b / 5)), sq_nonneg (v - 1 - b / 5)]

theorem Toy.five_std (b : ℝ) (hb : 0 < b) : 2 * b / 5 < npStd (Toy.fiveLines b) := by
  unfold npStd
  rw [Real.lt_sqrt (by positivity)]
  simp only [Toy.fiveLines, npMean, List.map_cons, List.map_nil, List.sum_cons, List.sum_nil, List.length_cons,
    List.length_nil]
  push_cast
  nlinarith

theorem Toy.five_residuals (b : ℝ) (hb : 0 < b) :
    ∀ r ∈ residuals [-(b / 5), 1 + b / 5] Toy.fivePixels (Toy.fiveLines b), |r| < npStd (Toy.fiveLines b) := by
  intro r hr
  have h := Toy.five_std b hb
  refine lt_of_le_of_lt ?_ h
  simp only [residuals, Toy.fivePixels, Toy.fiveLines, List.zipWith_cons_cons, List.zipWith_nil_right, evalLow,
    List.mem_cons, List.not_mem_nil, or_false] at hr
  rw [abs_le]
  rcases hr with rfl | rfl | rfl | rfl | rfl <;> constructor <;> linarith

/-- C196 (refutation).  Five pairs on a line, then the last wavelength is wrong by `b`: as the residuals are divided by the
standard deviation of the wavelengths, which grows with `b`, `robust_polyfit` is an ordinary least-squares fit for every
`b > 0`, and wrong by `b / 5` at the first pixel. -/
theorem C196_refuted : ¬ C196_Statement := by
  intro hst
  have hcard : (Toy.fivePixels).toFinset.card = 5 := by
    rw [List.toFinset_card_of_nodup (by unfold Toy.fivePixels; norm_num)]
    rfl
  obtain ⟨M, hM⟩ := hst Toy.fivePixels [0, 1] 1 4 rfl (by rw [hcard]; norm_num) (by decide)
  set b : ℝ := 5 * (|M| + 1) with hb
  have hb0 : 0 < b := by positivity
  have hy : (Toy.fivePixels.map (evalLow [0, 1])).set 4 (4 + b) = Toy.fiveLines b := by
    simp [Toy.fivePixels, Toy.fiveLines, evalLow]
  have hstdy : npStd (Toy.fiveLines b) ≠ 0 := by
    have := Toy.five_std b hb0
    intro h0
    rw [h0] at this
    linarith
  have hstdx : npStd Toy.fivePixels ≠ 0 := by
    rw [Ne, npStd_eq_zero_iff]
    intro h
    have := h 0 (by simp [Toy.fivePixels]) 1 (by simp [Toy.fivePixels])
    norm_num at this
  obtain ⟨hk, hg⟩ := (Toy.five_fit b).solver hstdx hstdy (Toy.five_residuals b hb0)
  obtain ⟨out, hout⟩ : ∃ out, robustPolyfit (fun _ _ => renormalise Toy.fivePixels (Toy.fiveLines b) [-(b / 5), 1 + b / 5])
      Toy.fivePixels (Toy.fiveLines b) 1 none = .ok out := by
    unfold robustPolyfit
    dsimp only
    rw [if_neg (by tauto)]
    exact ⟨_, rfl⟩
  have hval := hM (4 + b) _ hk (by rw [hy]; exact hg) none out (by rw [hy]; exact hout) 0 (by simp [Toy.fivePixels])
  rw [C196_least_squares_partial _ _ _ 1 hk hg none out hout rfl (by rw [hcard]; norm_num) _ (Toy.five_fit b)
    (Toy.five_residuals b hb0)] at hval
  simp only [evalLow] at hval
  have h5 : b / 5 = |M| + 1 := by rw [hb]; ring
  have h6 : |-(b / 5) + 0 * (1 + b / 5 + 0 * 0) - (0 + 0 * (1 + 0 * 0))| = |M| + 1 := by
    rw [show -(b / 5) + 0 * (1 + b / 5 + 0 * 0) - (0 + 0 * (1 + 0 * 0)) = -(b / 5) by ring, abs_neg, h5,
      abs_of_pos (by positivity)]
  rw [h6] at hval
  linarith [le_abs_self M]

/-- The hypotheses of `C196_least_squares_partial` met: five pairs, one of them wrong by 1000. -/
example : ∃ solve : (List ℝ → PyRes (List ℝ)) → List ℝ → List ℝ, KeepsLength solve 1 ∧
    GlobalMinimiser huber solve Toy.fivePixels (Toy.fiveLines 1000) 1 ∧
    OrdinaryFit Toy.fivePixels (Toy.fiveLines 1000) 1 [-(1000 / 5), 1 + 1000 / 5] ∧
    ∀ r ∈ residuals [-(1000 / 5), 1 + 1000 / 5] Toy.fivePixels (Toy.fiveLines 1000), |r| < npStd (Toy.fiveLines 1000) := by
  have hs : npStd (Toy.fiveLines 1000) ≠ 0 := by
    have := Toy.five_std 1000 (by norm_num)
    intro h0
    rw [h0] at this
    norm_num at this
  have hstdx : npStd Toy.fivePixels ≠ 0 := by
    rw [Ne, npStd_eq_zero_iff]
    intro h
    have := h 0 (by simp [Toy.fivePixels]) 1 (by simp [Toy.fivePixels])
    norm_num at this
  obtain ⟨hk, hg⟩ := (Toy.five_fit 1000).solver hstdx hs (Toy.five_residuals 1000 (by norm_num))
  exact ⟨_, hk, hg, Toy.five_fit 1000, Toy.five_residuals 1000 (by norm_num)⟩

/-! ### C197 -/

theorem sumSquares_mem (q x y : List ℝ) (r : ℝ) (hr : r ∈ residuals q x y) : r ^ 2 ≤ sumSquares q x y := by
  unfold sumSquares
  refine List.single_le_sum (l := (residuals q x y).map (fun r => r ^ 2)) ?_ _ (List.mem_map_of_mem hr)
  intro v hv
  obtain ⟨p, _, rfl⟩ := List.mem_map.1 hv
  exact sq_nonneg _

/-- C197, at the matched pixels.  Let `q` be the true calibration, with errors of the wavelengths whose squares sum up to
less than the variance of the wavelengths.  Then the squared residuals that are left and the squared deviations from the truth
together are exactly the squared errors: the residuals (and the rms) are never larger than the errors, and the solution is
never further from the truth than the errors are. -/
theorem C197_noise (solve : (List ℝ → PyRes (List ℝ)) → List ℝ → List ℝ) (x y : List ℝ) (d : Nat)
    (hs : KeepsLength solve d) (ho : GlobalMinimiser huber solve x y d) (x0 : Option (List ℝ)) (out : List ℝ)
    (h : robustPolyfit solve x y d x0 = .ok out) (hl : x.length = y.length) (hd : d < x.toFinset.card) (q : List ℝ)
    (hq : q.length = d + 1) (hn : sumSquares q x y < npStd y ^ 2) :
    sumSquares out x y + (x.map (fun t => (evalLow out t - evalLow q t) ^ 2)).sum = sumSquares q x y := by
  obtain ⟨l, hfit⟩ := ordinaryFit_exists x y d hl hd
  have hle := hfit.2 q hq
  have hr : ∀ r ∈ residuals l x y, |r| < npStd y := by
    intro r hm
    refine abs_lt_of_sq_lt_sq (lt_of_le_of_lt (sumSquares_mem l x y r hm) (lt_of_le_of_lt hle hn)) (npStd_nonneg y)
  have he := C196_least_squares_partial solve x y d hs ho x0 out h hl hd l hfit hr
  subst he
  have horth := hfit.orthogonal q hq
  have hx : (x.map (fun t => (evalLow out t - evalLow q t) ^ 2)).sum =
      ((x.zip y).map (fun p => (evalLow out p.1 - evalLow q p.1) ^ 2)).sum := by
    conv_lhs => rw [← List.map_fst_zip (l₁ := x) (l₂ := y) hl.le, List.map_map]
    rfl
  rw [hx, sumSquares_zip, sumSquares_zip]
  have e : ((x.zip y).map (fun p => (p.2 - evalLow q p.1) ^ 2)).sum =
      ((x.zip y).map (fun p => (p.2 - evalLow out p.1) ^ 2)).sum +
      ((x.zip y).map (fun p => (evalLow out p.1 - evalLow q p.1) ^ 2)).sum +
      ((x.zip y).map (fun p => (p.2 - evalLow out p.1) * (evalLow q p.1 - evalLow out p.1))).sum * (-2) := by
    rw [← listSum_mul, ← listSum_add, ← listSum_add]
    congr 1
    apply List.map_congr_left
    intro p _
    ring
  rw [e, horth]
  ring

/-- C197, everywhere.  With errors of at most `δ` each, the wavelength found for any pixel `t` is off by at most `√n δ` times
the sum of the Lagrange polynomials (in absolute value) of any `d + 1` of the matched pixels. -/
theorem C197_everywhere (solve : (List ℝ → PyRes (List ℝ)) → List ℝ → List ℝ) (x y : List ℝ) (d : Nat)
    (hs : KeepsLength solve d) (ho : GlobalMinimiser huber solve x y d) (x0 : Option (List ℝ)) (out : List ℝ)
    (h : robustPolyfit solve x y d x0 = .ok out) (hl : x.length = y.length) (q : List ℝ)
    (hq : q.length = d + 1) (δ : ℝ) (hδ : 0 ≤ δ) (he : ∀ r ∈ residuals q x y, |r| ≤ δ)
    (hn : Real.sqrt x.length * δ < npStd y) (pts : Finset ℝ) (hp : pts ⊆ x.toFinset) (hc : pts.card = d + 1) (t : ℝ) :
    |evalLow out t - evalLow q t| ≤
      Real.sqrt x.length * δ * ∑ i ∈ pts, ∏ j ∈ pts.erase i, |t - j| / |i - j| := by
  have hd : d < x.toFinset.card := by
    have := Finset.card_le_card hp
    omega
  obtain ⟨p0, hp0, hlen, _⟩ := C21_denormalisation solve x y d hs x0 out h
  have hlen' : (residuals q x y).length = x.length := by
    unfold residuals
    rw [List.length_zipWith, ← hl, min_self]
  have hsum : sumSquares q x y ≤ (Real.sqrt x.length * δ) ^ 2 := by
    unfold sumSquares
    have : ((residuals q x y).map (fun r => r ^ 2)).sum ≤ ((residuals q x y).map (fun r => r ^ 2)).length • δ ^ 2 := by
      apply List.sum_le_card_nsmul
      intro v hv
      obtain ⟨r, hr, rfl⟩ := List.mem_map.1 hv
      have := he r hr
      nlinarith [abs_nonneg r, sq_abs r]
    rw [List.length_map, hlen', nsmul_eq_mul] at this
    rw [mul_pow, Real.sq_sqrt (by positivity)]
    exact this
  have hlt : sumSquares q x y < npStd y ^ 2 := by
    refine lt_of_le_of_lt hsum ?_
    exact pow_lt_pow_left₀ hn (by positivity) two_ne_zero
  have hmain := C197_noise solve x y d hs ho x0 out h hl hd q hq hlt
  have hdev : ∀ i ∈ pts, |evalLow out i - evalLow q i| ≤ Real.sqrt x.length * δ := by
    intro i hi
    have hix : i ∈ x := List.mem_toFinset.1 (hp hi)
    refine abs_le_of_sq_le_sq ?_ (by positivity)
    refine le_trans ?_ hsum
    rw [← hmain]
    have h1 : (evalLow out i - evalLow q i) ^ 2 ≤ (x.map (fun t => (evalLow out t - evalLow q t) ^ 2)).sum := by
      refine List.single_le_sum (l := x.map (fun t => (evalLow out t - evalLow q t) ^ 2)) ?_ _
        (List.mem_map.2 ⟨i, hix, rfl⟩)
      intro v hv
      obtain ⟨p, _, rfl⟩ := List.mem_map.1 hv
      exact sq_nonneg _
    have h2 : 0 ≤ sumSquares out x y := by
      apply List.sum_nonneg
      intro v hv
      obtain ⟨p, _, rfl⟩ := List.mem_map.1 hv
      exact sq_nonneg _
    linarith
  have hpoly : toPoly out - toPoly q = Lagrange.interpolate pts id (fun i => evalLow out i - evalLow q i) := by
    have h1 : (toPoly out - toPoly q).degree < pts.card := by
      refine lt_of_le_of_lt (Polynomial.degree_sub_le _ _) ?_
      rw [hc]
      refine max_lt ?_ ?_
      · have := toPoly_degree_lt out
        rwa [hlen] at this
      · have := toPoly_degree_lt q
        rwa [hq] at this
    refine Lagrange.eq_interpolate_of_eval_eq _ Function.injective_id.injOn h1 ?_
    intro i _
    rw [Polynomial.eval_sub, toPoly_eval, toPoly_eval]
    rfl
  have hval : evalLow out t - evalLow q t =
      ∑ i ∈ pts, (evalLow out i - evalLow q i) * ∏ j ∈ pts.erase i, (t - j) / (i - j) := by
    have := congrArg (Polynomial.eval t) hpoly
    rw [Polynomial.eval_sub, toPoly_eval, toPoly_eval, Lagrange.interpolate_apply, Polynomial.eval_finset_sum] at this
    rw [this]
    apply Finset.sum_congr rfl
    intro i _
    rw [Polynomial.eval_mul, Polynomial.eval_C]
    congr 1
    unfold Lagrange.basis
    rw [Polynomial.eval_prod]
    apply Finset.prod_congr rfl
    intro j _
    unfold Lagrange.basisDivisor
    rw [Polynomial.eval_mul, Polynomial.eval_C, Polynomial.eval_sub, Polynomial.eval_X, Polynomial.eval_C]
    simp only [id]
    rw [div_eq_inv_mul]
  rw [hval, Finset.mul_sum]
  refine le_trans (Finset.abs_sum_le_sum_abs _ _) (Finset.sum_le_sum fun i hi => ?_)
  rw [abs_mul, Finset.abs_prod]
  simp only [abs_div]
  exact mul_le_mul_of_nonneg_right (hdev i hi) (Finset.prod_nonneg fun j _ => by positivity)

theorem Toy.half_std : Real.sqrt (Toy.fivePixels).length * (1 / 2) < npStd (Toy.fiveLines (1 / 2)) := by
  unfold npStd
  rw [Real.lt_sqrt (by positivity), mul_pow, Real.sq_sqrt (by positivity)]
  simp only [Toy.fivePixels, Toy.fiveLines, npMean, List.map_cons, List.map_nil, List.sum_cons, List.sum_nil, List.length_cons,
    List.length_nil]
  norm_num

/-- The hypotheses of `C197_noise` and `C197_everywhere` met: five pairs, one of them off by a half; the answer at pixel 10
is off by at most `√5 / 2` times the Lagrange polynomials of the pixels 0 and 4, which are 3/2 and 5/2 there. -/
example : ∃ (solve : (List ℝ → PyRes (List ℝ)) → List ℝ → List ℝ) (out : List ℝ),
    robustPolyfit solve Toy.fivePixels (Toy.fiveLines (1 / 2)) 1 none = .ok out ∧
    sumSquares [0, 1] Toy.fivePixels (Toy.fiveLines (1 / 2)) < npStd (Toy.fiveLines (1 / 2)) ^ 2 ∧
    sumSquares out Toy.fivePixels (Toy.fiveLines (1 / 2)) + (Toy.fivePixels.map (fun t =>
      (evalLow out t - evalLow [0, 1] t) ^ 2)).sum = sumSquares [0, 1] Toy.fivePixels (Toy.fiveLines (1 / 2)) ∧
    |evalLow out 10 - evalLow [0, 1] 10| ≤ Real.sqrt Toy.fivePixels.length * (1 / 2) *
      ∑ i ∈ ({0, 4} : Finset ℝ), ∏ j ∈ ({0, 4} : Finset ℝ).erase i, |10 - j| / |i - j| := by
  have hb : (0 : ℝ) < 1 / 2 := by norm_num
  have hstdy : npStd (Toy.fiveLines (1 / 2)) ≠ 0 := by
    have := Toy.five_std (1 / 2) hb
    intro h0
    rw [h0] at this
    norm_num at this
  have hstdx : npStd Toy.fivePixels ≠ 0 := by
    rw [Ne, npStd_eq_zero_iff]
    intro h
    have := h 0 (by simp [Toy.fivePixels]) 1 (by simp [Toy.fivePixels])
    norm_num at this
  have hcard : (Toy.fivePixels).toFinset.card = 5 := by
    rw [List.toFinset_card_of_nodup (by unfold Toy.fivePixels; norm_num)]
    rfl
  obtain ⟨hk, hg⟩ := (Toy.five_fit (1 / 2)).solver hstdx hstdy (Toy.five_residuals (1 / 2) hb)
  have hout : ∃ out, robustPolyfit (fun _ _ => renormalise Toy.fivePixels (Toy.fiveLines (1 / 2))
      [-(1 / 2 / 5), 1 + 1 / 2 / 5]) Toy.fivePixels (Toy.fiveLines (1 / 2)) 1 none = .ok out := by
    unfold robustPolyfit
    dsimp only
    rw [if_neg (by tauto)]
    exact ⟨_, rfl⟩
  obtain ⟨out, hout⟩ := hout
  have hres : residuals [0, 1] Toy.fivePixels (Toy.fiveLines (1 / 2)) = [0, 0, 0, 0, 1 / 2] := by
    simp [residuals, Toy.fivePixels, Toy.fiveLines, evalLow]
  have hn : sumSquares [0, 1] Toy.fivePixels (Toy.fiveLines (1 / 2)) < npStd (Toy.fiveLines (1 / 2)) ^ 2 := by
    have h1 := Toy.half_std
    have h2 : (Real.sqrt (Toy.fivePixels).length * (1 / 2)) ^ 2 < npStd (Toy.fiveLines (1 / 2)) ^ 2 :=
      pow_lt_pow_left₀ h1 (by positivity) two_ne_zero
    refine lt_trans ?_ h2
    rw [mul_pow, Real.sq_sqrt (by positivity)]
    unfold sumSquares
    rw [hres]
    norm_num [Toy.fivePixels]
  refine ⟨_, out, hout, hn, C197_noise _ _ _ 1 hk hg none out hout rfl (by rw [hcard]; norm_num) [0, 1] rfl hn, ?_⟩
  refine C197_everywhere _ _ _ 1 hk hg none out hout rfl [0, 1] rfl (1 / 2) hb.le ?_ Toy.half_std {0, 4} ?_ ?_ 10
  · intro r hr
    rw [hres] at hr
    simp only [List.mem_cons, List.not_mem_nil, or_false] at hr
    rcases hr with rfl | rfl | rfl | rfl | rfl <;> norm_num
  · intro v hv
    rw [List.mem_toFinset]
    rw [Finset.mem_insert, Finset.mem_singleton] at hv
    rcases hv with rfl | rfl <;> simp [Toy.fivePixels]
  · rw [Finset.card_pair (by norm_num)]

end Rascal
