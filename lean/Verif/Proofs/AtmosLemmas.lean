import Verif.Model.Atmosphere
import Mathlib.Tactic.Linarith
import Mathlib.Tactic.NormNum
import Mathlib.Tactic.Ring
import Mathlib.Tactic.FieldSimp
import Mathlib.Tactic.LinearCombination
import Mathlib.Tactic.Positivity

/-! Estimates for the air/vacuum conversion. -/

namespace Rascal

/-- Dispersion term as a function of `s = 1e8 / wavelength²`. -/
noncomputable def disp (s : ℝ) : ℝ := 1e-8 * (8342.54 + 2406147 / (130 - s) + 15998 / (38.9 - s))

/-- Index as a function of `s` with pressure factor `κ` and humidity terms `m`, `k`. -/
noncomputable def idx (κ m k s : ℝ) : ℝ := 1 + κ * disp s + m * s - k

/-- `S` of the Edlen formula. -/
noncomputable def sOf (w : ℝ) : ℝ := ((w / 10000) ^ 2)⁻¹

theorem sOf_eq (w : ℝ) : sOf w = 100000000 / w ^ 2 := by
  unfold sOf
  rw [div_pow, inv_div]
  norm_num

theorem sOf_pos {w : ℝ} (hw : 0 < w) : 0 < sOf w := by
  rw [sOf_eq]; positivity

theorem sOf_le {w : ℝ} (hw : 1990 ≤ w) : sOf w ≤ 25.3 := by
  rw [sOf_eq, div_le_iff₀ (by positivity)]
  nlinarith

theorem sOf_le' {w : ℝ} (hw : 2000 ≤ w) : sOf w ≤ 25 := by
  rw [sOf_eq, div_le_iff₀ (by positivity)]
  nlinarith

theorem sOf_lt {w w' : ℝ} (hw : 0 < w) (h : w < w') : sOf w' < sOf w := by
  rw [sOf_eq, sOf_eq]
  apply div_lt_div_of_pos_left (by norm_num) (by positivity)
  nlinarith

/-- Difference quotient of `disp`. -/
theorem disp_sub {s s' : ℝ} (h : s ≤ 30) (h' : s' ≤ 30) :
    disp s - disp s' = (s - s') * (1e-8 * (2406147 / ((130 - s) * (130 - s')) +
      15998 / ((38.9 - s) * (38.9 - s')))) := by
  unfold disp
  have h1 : (130 - s) ≠ 0 := by linarith
  have h2 : (130 - s') ≠ 0 := by linarith
  have h3 : (38.9 - s) ≠ 0 := by linarith
  have h4 : (38.9 - s') ≠ 0 := by linarith
  field_simp
  ring

theorem slope_pos {s s' : ℝ} (h : s ≤ 30) (h' : s' ≤ 30) :
    0 < 1e-8 * (2406147 / ((130 - s) * (130 - s')) + 15998 / ((38.9 - s) * (38.9 - s'))) := by
  have h1 : 0 < (130 - s) := by linarith
  have h2 : 0 < (130 - s') := by linarith
  have h3 : 0 < (38.9 - s) := by linarith
  have h4 : 0 < (38.9 - s') := by linarith
  positivity

theorem slope_le {s s' : ℝ} (h : s ≤ 26) (h' : s' ≤ 26) :
    1e-8 * (2406147 / ((130 - s) * (130 - s')) + 15998 / ((38.9 - s) * (38.9 - s'))) ≤ 3.3e-6 := by
  have a1 : (130 - s) * (130 - s') ≥ 104 * 104 := by nlinarith
  have a2 : (38.9 - s) * (38.9 - s') ≥ 12.9 * 12.9 := by nlinarith
  have b1 : 2406147 / ((130 - s) * (130 - s')) ≤ 223 := by
    rw [div_le_iff₀ (by linarith)]; linarith
  have b2 : 15998 / ((38.9 - s) * (38.9 - s')) ≤ 97 := by
    rw [div_le_iff₀ (by linarith)]; linarith
  linarith

theorem disp_lt {s s' : ℝ} (h : s < s') (h' : s' ≤ 30) : disp s < disp s' := by
  have := disp_sub h' (h.le.trans h')
  have hp := slope_pos h' (h.le.trans h')
  nlinarith

theorem disp_pos {s : ℝ} (h : s ≤ 38) : 0 < disp s := by
  unfold disp
  have h1 : 0 < (130 - s) := by linarith
  have h3 : 0 < (38.9 - s) := by linarith
  positivity

theorem disp_le {s : ℝ} (h : s ≤ 26) : disp s ≤ 3.3e-4 := by
  unfold disp
  have b1 : 2406147 / (130 - s) ≤ 23137 := by
    rw [div_le_iff₀ (by linarith)]; linarith
  have b2 : 15998 / (38.9 - s) ≤ 1241 := by
    rw [div_le_iff₀ (by linarith)]; linarith
  linarith

/-- The bounds on the constants for admissible conditions. -/
structure AtmosBounds (κ m k : ℝ) : Prop where
  κ0 : 0 ≤ κ
  κ1 : κ ≤ 1.42
  m0 : 0 ≤ m
  m1 : m ≤ 1e-8
  k0 : 0 ≤ k
  k1 : k ≤ 5e-7

variable {κ m k : ℝ}

theorem idx_pos (hb : AtmosBounds κ m k) {s : ℝ} (h0 : 0 ≤ s) (h : s ≤ 30) : 0 < idx κ m k s := by
  unfold idx
  have := mul_nonneg hb.κ0 (disp_pos (s := s) (by linarith)).le
  have := mul_nonneg hb.m0 h0
  have := hb.k1
  linarith

theorem idx_mono (hb : AtmosBounds κ m k) {s s' : ℝ} (h : s ≤ s') (h' : s' ≤ 30) :
    idx κ m k s ≤ idx κ m k s' := by
  unfold idx
  rcases h.eq_or_lt with rfl | hlt
  · exact le_rfl
  · have := mul_le_mul_of_nonneg_left (disp_lt hlt h').le hb.κ0
    have := mul_le_mul_of_nonneg_left h hb.m0
    linarith

theorem idx_sub_abs (hb : AtmosBounds κ m k) {s s' : ℝ} (h : s ≤ 26) (h' : s' ≤ 26) :
    |idx κ m k s - idx κ m k s'| ≤ 4.7e-6 * |s - s'| := by
  have e : idx κ m k s - idx κ m k s' = (s - s') * (κ * (1e-8 * (2406147 / ((130 - s) * (130 - s')) +
      15998 / ((38.9 - s) * (38.9 - s')))) + m) := by
    have := disp_sub (s := s) (s' := s') (by linarith) (by linarith)
    unfold idx
    linear_combination κ * this
  have p := slope_pos (s := s) (s' := s') (by linarith) (by linarith)
  have q := slope_le h h'
  rw [e, abs_mul, mul_comm]
  apply mul_le_mul_of_nonneg_right _ (abs_nonneg _)
  generalize 1e-8 * (2406147 / ((130 - s) * (130 - s')) + 15998 / ((38.9 - s) * (38.9 - s'))) = x at *
  rw [abs_of_nonneg (by have := hb.m0; have := mul_nonneg hb.κ0 p.le; linarith)]
  have h1 : κ * x ≤ 1.42 * 3.3e-6 := mul_le_mul hb.κ1 q p.le (by norm_num)
  have := hb.m1
  norm_num at h1 this ⊢
  linarith

theorem idx_bounds (hb : AtmosBounds κ m k) {s : ℝ} (h0 : 0 ≤ s) (h : s ≤ 26) :
    1 - 5e-7 ≤ idx κ m k s ∧ idx κ m k s ≤ 1 + 4.7e-4 := by
  unfold idx
  have p := (disp_pos (s := s) (by linarith)).le
  have := mul_nonneg hb.κ0 p
  have := mul_nonneg hb.m0 h0
  have := hb.k1
  have := hb.k0
  have h1 : κ * disp s ≤ 1.42 * 3.3e-4 := mul_le_mul hb.κ1 (disp_le h) p (by norm_num)
  have h2 : m * s ≤ 1e-8 * 26 := mul_le_mul hb.m1 h h0 (by norm_num)
  norm_num at *
  constructor <;> linarith

/-- vacuum to air is increasing. -/
theorem vta_lt (hb : AtmosBounds κ m k) {w w' : ℝ} (hw : 1990 ≤ w) (h : w < w') :
    w / idx κ m k (sOf w) < w' / idx κ m k (sOf w') := by
  have p1 := idx_pos hb (sOf_pos (w := w) (by linarith)).le (by have := sOf_le hw; linarith)
  have p2 := idx_pos hb (sOf_pos (w := w') (by linarith)).le
    (by have := sOf_le (w := w') (by linarith); linarith)
  have hm := idx_mono hb (sOf_lt (w := w) (by linarith) h).le (by have := sOf_le hw; linarith)
  rw [div_lt_div_iff₀ p1 p2]
  nlinarith

/-- air to vacuum is increasing. -/
theorem atv_lt (hb : AtmosBounds κ m k) {w w' : ℝ} (hw : 1990 ≤ w) (h : w < w') :
    w * idx κ m k (sOf w) < w' * idx κ m k (sOf w') := by
  have hw0 : 0 < w := by linarith
  have hw0' : 0 < w' := by linarith
  have h1 := sOf_le hw
  have h2 := sOf_le (w := w') (by linarith)
  have hs := sOf_lt hw0 h
  have hd := idx_sub_abs hb (s := sOf w) (s' := sOf w') (by linarith) (by linarith)
  rw [abs_of_pos (sub_pos.2 hs)] at hd
  have hd := (le_abs_self _).trans hd
  have hlow := (idx_bounds hb (sOf_pos hw0').le (s := sOf w') (by linarith)).1
  -- w * (s - s') ≤ 51 * (w' - w)
  have key : w * (sOf w - sOf w') ≤ 51 * (w' - w) := by
    rw [sOf_eq, sOf_eq]
    have e : w * (100000000 / w ^ 2 - 100000000 / w' ^ 2) =
        (w' - w) * (100000000 * (w + w') / (w * w' ^ 2)) := by
      field_simp
      ring
    rw [e, mul_comm]
    apply mul_le_mul_of_nonneg_right _ (by linarith)
    rw [div_le_iff₀ (by positivity)]
    have : (1990:ℝ) * 1990 ≤ w * w' := by nlinarith
    have h3 : 1990 * 1990 * w' ≤ w * w' ^ 2 := by nlinarith
    nlinarith
  have h3 : w * (idx κ m k (sOf w) - idx κ m k (sOf w')) ≤ w * (4.7e-6 * (sOf w - sOf w')) :=
    mul_le_mul_of_nonneg_left hd hw0.le
  have h4 : w * (4.7e-6 * (sOf w - sOf w')) ≤ 4.7e-6 * (51 * (w' - w)) := by
    have := mul_le_mul_of_nonneg_left key (show (0:ℝ) ≤ 4.7e-6 by norm_num)
    linarith
  have h5 : (w' - w) * (1 - 5e-7) ≤ (w' - w) * idx κ m k (sOf w') :=
    mul_le_mul_of_nonneg_left hlow (by linarith)
  norm_num at h3 h4 h5
  nlinarith

/-- Scaling the wavelength by a factor close to one barely changes the index. -/
theorem idx_scaled (hb : AtmosBounds κ m k) {w c : ℝ} (hw : 1990 ≤ w) (hc : 1990 ≤ c)
    (hs : |sOf c - sOf w| ≤ 0.025) :
    |idx κ m k (sOf c) / idx κ m k (sOf w) - 1| ≤ 2e-7 := by
  have h1 := sOf_le hw
  have h2 := sOf_le hc
  have hd := idx_sub_abs hb (s := sOf c) (s' := sOf w) (by linarith) (by linarith)
  have hlow := (idx_bounds hb (sOf_pos (w := w) (by linarith)).le (by linarith)).1
  have hp : 0 < idx κ m k (sOf w) := by norm_num at hlow; linarith
  rw [div_sub_one hp.ne', abs_div, abs_of_pos hp, div_le_iff₀ hp]
  have : 4.7e-6 * |sOf c - sOf w| ≤ 4.7e-6 * 0.025 :=
    mul_le_mul_of_nonneg_left hs (by norm_num)
  norm_num at this hd hlow ⊢
  nlinarith

/-- Index difference at the converted wavelength: dividing. -/
theorem sOf_div {w n : ℝ} (hw : 0 < w) (hn : 0 < n) : sOf (w / n) = sOf w * n ^ 2 := by
  rw [sOf_eq, sOf_eq]; field_simp

theorem sOf_mul {w n : ℝ} (hw : 0 < w) (hn : 0 < n) : sOf (w * n) = sOf w / n ^ 2 := by
  rw [sOf_eq, sOf_eq]; field_simp

theorem sOf_div_close (hb : AtmosBounds κ m k) {w : ℝ} (hw : 1990 ≤ w) :
    |sOf (w / idx κ m k (sOf w)) - sOf w| ≤ 0.025 := by
  have h0 := sOf_pos (w := w) (by linarith)
  have h1 := sOf_le hw
  obtain ⟨b1, b2⟩ := idx_bounds hb h0.le (s := sOf w) (by linarith)
  have hp := idx_pos hb h0.le (s := sOf w) (by linarith)
  rw [sOf_div (by linarith) hp]
  generalize idx κ m k (sOf w) = n at *
  generalize sOf w = s at *
  norm_num at b1 b2 h1 ⊢
  have e : s * n ^ 2 - s = s * (n ^ 2 - 1) := by ring
  have hn : |n ^ 2 - 1| ≤ 941 / 1000000 := by
    rw [abs_le]; constructor <;> nlinarith
  rw [e, abs_mul, abs_of_pos h0]
  calc s * |n ^ 2 - 1| ≤ (253 / 10) * (941 / 1000000) := mul_le_mul h1 hn (abs_nonneg _) (by norm_num)
    _ ≤ 1 / 40 := by norm_num

theorem sOf_mul_close (hb : AtmosBounds κ m k) {w : ℝ} (hw : 1990 ≤ w) :
    |sOf (w * idx κ m k (sOf w)) - sOf w| ≤ 0.025 := by
  have h0 := sOf_pos (w := w) (by linarith)
  have h1 := sOf_le hw
  obtain ⟨b1, b2⟩ := idx_bounds hb h0.le (s := sOf w) (by linarith)
  have hp := idx_pos hb h0.le (s := sOf w) (by linarith)
  rw [sOf_mul (by linarith) hp]
  generalize idx κ m k (sOf w) = n at *
  generalize sOf w = s at *
  norm_num at b1 b2 h1 ⊢
  have e : s / n ^ 2 - s = s * (1 / n ^ 2 - 1) := by field_simp
  have hn : |1 / n ^ 2 - 1| ≤ 941 / 1000000 := by
    have hn2 : 0 < n ^ 2 := by positivity
    have : 1 / n ^ 2 - 1 = (1 - n ^ 2) / n ^ 2 := by field_simp
    rw [this, abs_div, abs_of_pos hn2, div_le_iff₀ hn2, abs_le]
    constructor <;> nlinarith
  rw [e, abs_mul, abs_of_pos h0]
  calc s * |1 / n ^ 2 - 1| ≤ (253 / 10) * (941 / 1000000) := mul_le_mul h1 hn (abs_nonneg _) (by norm_num)
    _ ≤ 1 / 40 := by norm_num

/-! ### vapour pressure -/

theorem vpOmega_bounds {t : ℝ} (h0 : -50 ≤ t) (h1 : t ≤ 100) : t ≤ vpOmega t ∧ vpOmega t ≤ t + 0.001 := by
  unfold vpOmega
  have hd : t - 650.175348448 < 0 := by norm_num; linarith
  have e : (-0.238555575678 : ℝ) / (t - 650.175348448) = 0.238555575678 / (650.175348448 - t) := by
    rw [← neg_sub (650.175348448 : ℝ) t, div_neg, neg_div, neg_neg]
  rw [e]
  have hp : (0:ℝ) < 650.175348448 - t := by linarith
  constructor
  · have : (0:ℝ) < 0.238555575678 / (650.175348448 - t) := by positivity
    linarith
  · have : 0.238555575678 / (650.175348448 - t) ≤ 0.001 := by
      rw [div_le_iff₀ hp]; norm_num at *; linarith
    linarith

theorem vp_signs {o : ℝ} (h0 : -50 ≤ o) (h1 : o ≤ 101) :
    vpA o < 0 ∧ vpB o < 0 ∧ 0 < vpC o ∧ vpC o ≤ 0.1775 * -vpB o := by
  unfold vpA vpB vpC
  norm_num
  refine ⟨?_, ?_, ?_, ?_⟩ <;> nlinarith

theorem vp_defined {o : ℝ} (h0 : -50 ≤ o) (h1 : o ≤ 101) :
    0 < vpDisc o ∧ 0 < vpX o ∧ -2 * vpB o ≤ vpX o := by
  obtain ⟨ha, hb, hc, _⟩ := vp_signs h0 h1
  have hd : vpB o ^ 2 < vpDisc o := by unfold vpDisc; nlinarith [mul_neg_of_neg_of_pos ha hc]
  have hs : -vpB o ≤ Real.sqrt (vpDisc o) := by
    apply Real.le_sqrt_of_sq_le
    nlinarith
  refine ⟨lt_of_le_of_lt (sq_nonneg _) hd, ?_, ?_⟩ <;> unfold vpX <;> linarith

theorem vapourPressure_bounds {t : ℝ} (h0 : -50 ≤ t) (h1 : t ≤ 100) :
    0 < vapourPressure t ∧ vapourPressure t ≤ 1000 := by
  obtain ⟨o0, o1⟩ := vpOmega_bounds h0 h1
  obtain ⟨_, hB, hC, hr⟩ := vp_signs (o := vpOmega t) (by linarith) (by linarith)
  obtain ⟨_, hX, hX2⟩ := vp_defined (o := vpOmega t) (by linarith) (by linarith)
  unfold vapourPressure
  have hq0 : 0 < 2 * vpC (vpOmega t) / vpX (vpOmega t) := by positivity
  have hq1 : 2 * vpC (vpOmega t) / vpX (vpOmega t) ≤ 0.1775 := by
    rw [div_le_iff₀ hX]; norm_num at *; linarith
  refine ⟨by positivity, ?_⟩
  calc (10:ℝ) ^ 6 * (2 * vpC (vpOmega t) / vpX (vpOmega t)) ^ 4 ≤ 10 ^ 6 * 0.1775 ^ 4 := by
        gcongr
    _ ≤ 1000 := by norm_num

/-! ### the index in the admissible range -/

/-- Pressure factor. -/
noncomputable def kappa (t p : ℝ) : ℝ :=
  p * ((1 + 1e-8 * (0.601 - 0.00972 * t) * p) / (1 + 0.003661 * t)) / 96095.43

theorem edlen_eq (w t p v : ℝ) : edlenRefraction w t p v =
    idx (kappa t p) (0.0401 * (1e-10 * (292.75 / (t + 273.15)) * v))
      (3.7345 * (1e-10 * (292.75 / (t + 273.15)) * v)) (sOf w) := by
  unfold edlenRefraction idx kappa disp sOf
  dsimp only
  ring

theorem kappa_bounds {t p : ℝ} (h0 : -50 ≤ t) (h1 : t ≤ 100) (p0 : 0 ≤ p) (p1 : p ≤ 110000) :
    0 ≤ kappa t p ∧ kappa t p ≤ 1.42 := by
  unfold kappa
  have hG : (0:ℝ) < 1 + 0.003661 * t := by norm_num; linarith
  have hE1 : 1e-8 * (0.601 - 0.00972 * t) * p ≤ 0.0013 := by
    have : 1e-8 * (0.601 - 0.00972 * t) ≤ 1.1e-8 := by norm_num; linarith
    calc 1e-8 * (0.601 - 0.00972 * t) * p ≤ 1.1e-8 * p := mul_le_mul_of_nonneg_right this p0
      _ ≤ 0.0013 := by norm_num; linarith
  have hE0 : -0.5 ≤ 1e-8 * (0.601 - 0.00972 * t) * p := by
    have : -1e-8 ≤ 1e-8 * (0.601 - 0.00972 * t) := by norm_num; linarith
    calc (-0.5:ℝ) ≤ -1e-8 * p := by norm_num; linarith
      _ ≤ 1e-8 * (0.601 - 0.00972 * t) * p := mul_le_mul_of_nonneg_right this p0
  generalize 1e-8 * (0.601 - 0.00972 * t) * p = x at *
  have hx : (0:ℝ) ≤ 1 + x := by norm_num at hE0; linarith
  refine ⟨by positivity, ?_⟩
  rw [div_le_iff₀ (by norm_num), ← mul_div_assoc, div_le_iff₀ hG]
  have : p * (1 + x) ≤ 110000 * 1.0013 := mul_le_mul p1 (by norm_num at *; linarith) hx (by norm_num)
  norm_num at *
  linarith

theorem atmosBounds {t p rh : ℝ} (h0 : -50 ≤ t) (h1 : t ≤ 100) (p0 : 0 ≤ p) (p1 : p ≤ 110000)
    (r0 : 0 ≤ rh) (r1 : rh ≤ 100) :
    AtmosBounds (kappa t p)
      (0.0401 * (1e-10 * (292.75 / (t + 273.15)) * vapourPartialPressure rh (vapourPressure t)))
      (3.7345 * (1e-10 * (292.75 / (t + 273.15)) * vapourPartialPressure rh (vapourPressure t))) := by
  obtain ⟨k0, k1⟩ := kappa_bounds h0 h1 p0 p1
  obtain ⟨v0, v1⟩ := vapourPressure_bounds h0 h1
  have pp0 : 0 ≤ vapourPartialPressure rh (vapourPressure t) := by
    unfold vapourPartialPressure; positivity
  have pp1 : vapourPartialPressure rh (vapourPressure t) ≤ 1000 := by
    unfold vapourPartialPressure
    calc rh / 100 * vapourPressure t ≤ 1 * 1000 :=
          mul_le_mul (by linarith) v1 v0.le (by norm_num)
      _ = 1000 := by norm_num
  generalize vapourPartialPressure rh (vapourPressure t) = v at *
  have hT : (0:ℝ) < t + 273.15 := by norm_num; linarith
  have hc : 292.75 / (t + 273.15) ≤ 1.313 := by
    rw [div_le_iff₀ hT]; norm_num; linarith
  have hc0 : 0 ≤ 292.75 / (t + 273.15) := by positivity
  have hx : 1e-10 * (292.75 / (t + 273.15)) * v ≤ 1e-10 * 1.313 * 1000 := by
    apply mul_le_mul _ pp1 pp0 (by norm_num)
    exact mul_le_mul_of_nonneg_left hc (by norm_num)
  have hx0 : 0 ≤ 1e-10 * (292.75 / (t + 273.15)) * v := by positivity
  generalize 1e-10 * (292.75 / (t + 273.15)) * v = x at *
  norm_num at hx
  exact ⟨k0, k1, by positivity, by norm_num; linarith, by positivity, by norm_num; linarith⟩

end Rascal
