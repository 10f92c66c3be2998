import Verif.Props.AtmosphereProps

/-!
Property theorems C164: how humidity and temperature change air wavelengths.
-/

set_option linter.unusedSectionVars false

namespace Rascal

/-- The index of moist air by the Edlen equation: the dry index less a term proportional to the partial pressure
of the water vapour, which is the given share of the saturation pressure at the temperature of the air. -/
noncomputable def Spec.moistIndex (T p rh w : ℝ) : ℝ :=
  refractiveIndex T p 0 w -
    1e-10 * (292.75 / T) * (3.7345 - 0.0401 * (10 ^ 8 / w ^ 2)) * (rh / 100 * Spec.saturationPressure (T - 273.15))

/-- The documented treatment of humidity. -/
def C164_Statement : Prop :=
  ∀ T p rh w : ℝ, Spec.Conditions T p rh → 1700 < w → refractiveIndex T p rh w = Spec.moistIndex T p rh w

/-- The index is the dry index less a humidity term. -/
theorem index_moist (T p rh w : ℝ) : refractiveIndex T p rh w = refractiveIndex T p 0 w -
    1e-10 * (292.75 / T) * (3.7345 - 0.0401 * (10 ^ 8 / w ^ 2)) * (rh / 100 * vapourPressure (T - 273.15)) := by
  rw [index_dry]
  unfold refractiveIndex vapourPartialPressure
  rw [edlen_eq]
  unfold idx
  rw [sOf_eq, sub_add_cancel]
  norm_num
  ring

theorem moist_factor {T w : ℝ} (hT : 0 < T) (hw : 1700 < w) :
    0 < 1e-10 * (292.75 / T) * (3.7345 - 0.0401 * (10 ^ 8 / w ^ 2)) := by
  have hs := sOf_le_1700 hw
  rw [sOf_eq] at hs
  have h1 : 0 < 3.7345 - 0.0401 * ((10:ℝ) ^ 8 / w ^ 2) := by norm_num at hs ⊢; linarith
  positivity

/-- C164, what holds: more humidity lowers the index, so it raises air wavelengths and lowers vacuum wavelengths.
What is missing: the size of the effect, see `C164_small_partial`. -/
theorem C164_humidity_partial {T p rh rh' w : ℝ} (h : Spec.Conditions T p rh) (h' : Spec.Conditions T p rh')
    (hlt : rh < rh') (hw : 2000 ≤ w) :
    refractiveIndex T p rh' w < refractiveIndex T p rh w ∧ vacuumToAir T p rh w < vacuumToAir T p rh' w ∧
      airToVacuum T p rh' w < airToVacuum T p rh w := by
  have hT0 : -50 ≤ T - 273.15 := by have := h.cold; norm_num at *; linarith
  have hT1 : T - 273.15 ≤ 100 := by have := h.hot; norm_num at *; linarith
  have hT : 0 < T := by have := h.cold; norm_num at *; linarith
  have hv := (vapourPressure_bounds hT0 hT1).1
  have hn : refractiveIndex T p rh' w < refractiveIndex T p rh w := by
    rw [index_moist T p rh, index_moist T p rh']
    have h1 := mul_lt_mul_of_pos_right (show rh / 100 < rh' / 100 by linarith) hv
    have h2 := mul_lt_mul_of_pos_left h1 (moist_factor hT (w := w) (by linarith))
    linarith
  have hpos : 0 < refractiveIndex T p rh' w := by
    obtain ⟨κ, m, k, hb, he⟩ := index_form h'
    rw [he]
    exact idx_pos hb (sOf_pos (w := w) (by linarith)).le (by have := sOf_le' hw; linarith)
  have hw0 : 0 < w := by linarith
  exact ⟨hn, div_lt_div_of_pos_left hw0 hpos hn, mul_lt_mul_of_pos_left hn hw0⟩

/-- A dry and a humid night at the same site. -/
example : vacuumToAir 283 77000 10 5000 < vacuumToAir 283 77000 90 5000 :=
  (C164_humidity_partial (by constructor <;> norm_num) (by constructor <;> norm_num) (by norm_num)
    (by norm_num)).2.1

theorem kappa_temperature {t t' p : ℝ} (h0 : -50 ≤ t) (hlt : t < t') (h1 : t' ≤ 100) (p0 : 0 < p)
    (p1 : p ≤ 110000) : kappa t' p < kappa t p := by
  unfold kappa
  have hG : (0:ℝ) < 1 + 0.003661 * t := by norm_num; linarith
  have hG' : (0:ℝ) < 1 + 0.003661 * t' := by norm_num; linarith
  rw [div_lt_div_iff_of_pos_right (by norm_num)]
  apply mul_lt_mul_of_pos_left _ p0
  rw [div_lt_div_iff₀ hG' hG]
  have e : (1 + 1e-8 * (0.601 - 0.00972 * t) * p) * (1 + 0.003661 * t') -
      (1 + 1e-8 * (0.601 - 0.00972 * t') * p) * (1 + 0.003661 * t) =
      (t' - t) * (0.003661 + 1e-8 * p * (0.601 * 0.003661 + 0.00972)) := by norm_num; ring
  have : 0 < (t' - t) * (0.003661 + 1e-8 * p * (0.601 * 0.003661 + 0.00972)) :=
    mul_pos (sub_pos.2 hlt) (by positivity)
  linarith

/-- C164, what holds: in dry air of positive pressure a higher temperature lowers the index, so it raises air
wavelengths and lowers vacuum wavelengths.  What is missing: moist air. -/
theorem C164_temperature_partial {T T' p w : ℝ} (h : Spec.Conditions T p 0) (h' : Spec.Conditions T' p 0)
    (hlt : T < T') (hp : 0 < p) (hw : 1700 < w) :
    refractiveIndex T' p 0 w < refractiveIndex T p 0 w ∧ vacuumToAir T p 0 w < vacuumToAir T' p 0 w ∧
      airToVacuum T' p 0 w < airToVacuum T p 0 w := by
  have hT0 : -50 ≤ T - 273.15 := by have := h.cold; norm_num at *; linarith
  have hT1 : T' - 273.15 ≤ 100 := by have := h'.hot; norm_num at *; linarith
  have hn : refractiveIndex T' p 0 w < refractiveIndex T p 0 w := by
    rw [index_dry, index_dry]
    have h1 := kappa_temperature hT0 (show T - 273.15 < T' - 273.15 by linarith) hT1 hp h.pressure_le
    have h2 := mul_lt_mul_of_pos_right h1
      (disp_pos (s := sOf w) (by have := sOf_le_1700 hw; norm_num at *; linarith))
    linarith
  have hpos : 0 < refractiveIndex T' p 0 w := by linarith [(C13_index_ge_one h' hw).1]
  have hw0 : 0 < w := by linarith
  exact ⟨hn, div_lt_div_of_pos_left hw0 hpos hn, mul_lt_mul_of_pos_left hn hw0⟩

/-- Winter and summer at the same pressure. -/
example : vacuumToAir 263 77000 0 5000 < vacuumToAir 293 77000 0 5000 :=
  (C164_temperature_partial (by constructor <;> norm_num) (by constructor <;> norm_num) (by norm_num) (by norm_num)
    (by norm_num)).2.1

/-- The value used at 20 Celsius is at most 147 Pa. -/
theorem vapour_twenty : vapourPressure 20 ≤ 147 := by
  obtain ⟨q0, q1⟩ := vpOmega_bounds (t := 20) (by norm_num) (by norm_num)
  unfold vapourPressure
  generalize vpOmega 20 = q at *
  norm_num at q0 q1
  obtain ⟨_, hB, hC, _⟩ := vp_signs (o := q) (by linarith) (by linarith)
  obtain ⟨_, hX, hX2⟩ := vp_defined (o := q) (by linarith) (by linarith)
  have hq : 2 * vpC q / vpX q ≤ 0.11 := by
    rw [div_le_iff₀ hX]
    have : vpC q ≤ 0.11 * -vpB q := by
      unfold vpC vpB; norm_num; nlinarith
    norm_num at *; linarith
  have h3 : 0 ≤ 2 * vpC q / vpX q := by positivity
  have := pow_le_pow_left₀ h3 hq 4
  norm_num at this ⊢
  linarith

/-- The saturation pressure at 20 Celsius is more than 2000 Pa. -/
theorem saturation_twenty : 2000 ≤ Spec.saturationPressure 20 := by
  unfold Spec.saturationPressure
  dsimp only
  have hω : ((20:ℝ) + 273.15) - 0.238555575678 / ((20 + 273.15) - 650.175348448) ∈ Set.Icc (293.15:ℝ) 293.151 := by
    constructor <;> norm_num
  generalize ((20:ℝ) + 273.15) - 0.238555575678 / ((20 + 273.15) - 650.175348448) = o at *
  obtain ⟨o0, o1⟩ := hω
  norm_num at o0 o1
  have hA : -296200 ≤ o ^ 2 + 1167.05214528 * o - 724213.167032 := by norm_num; nlinarith
  have hB0 : -1176000 ≤ -17.0738469401 * o ^ 2 + 12020.8247025 * o - 3232555.03223 := by norm_num; nlinarith
  have hB1 : -17.0738469401 * o ^ 2 + 12020.8247025 * o - 3232555.03223 ≤ -1175000 := by norm_num; nlinarith
  have hC0 : 272900 ≤ 14.9151086135 * o ^ 2 - 4823.26573616 * o + 405113.405421 := by norm_num; nlinarith
  have hC1 : 14.9151086135 * o ^ 2 - 4823.26573616 * o + 405113.405421 ≤ 273000 := by norm_num; nlinarith
  generalize o ^ 2 + 1167.05214528 * o - 724213.167032 = A at *
  generalize -17.0738469401 * o ^ 2 + 12020.8247025 * o - 3232555.03223 = B at *
  generalize 14.9151086135 * o ^ 2 - 4823.26573616 * o + 405113.405421 = C at *
  have hs : Real.sqrt (B ^ 2 - 4 * A * C) ≤ 1320000 := by
    rw [Real.sqrt_le_left (by norm_num)]
    have h1 : B ^ 2 ≤ 1176000 ^ 2 := by nlinarith
    have h2 : -A * C ≤ 296200 * 273000 := by
      nlinarith [mul_nonneg (show (0:ℝ) ≤ C by linarith) (show 0 ≤ A + 296200 by linarith)]
    norm_num at h1 h2 ⊢
    nlinarith
  have hs0 := Real.sqrt_nonneg (B ^ 2 - 4 * A * C)
  have hX : 0 < -B + Real.sqrt (B ^ 2 - 4 * A * C) := by linarith
  have h1 : 0.218 ≤ 2 * C / (-B + Real.sqrt (B ^ 2 - 4 * A * C)) := by
    rw [le_div_iff₀ hX]
    norm_num; linarith
  have := pow_le_pow_left₀ (by norm_num) h1 4
  norm_num at this ⊢
  linarith

/-- C164, how far the effect is off: at 20 Celsius, whatever the pressure and the humidity, the index falls by less
than a tenth of what the equation gives.  What is missing: see `C164_refuted`. -/
theorem C164_small_partial {p rh w : ℝ} (hrh : 0 < rh) (hw : 1700 < w) :
    refractiveIndex 293.15 p 0 w - refractiveIndex 293.15 p rh w <
      (refractiveIndex 293.15 p 0 w - Spec.moistIndex 293.15 p rh w) / 10 := by
  rw [index_moist 293.15 p rh]
  unfold Spec.moistIndex
  have hf := moist_factor (T := 293.15) (by norm_num) hw
  rw [show (293.15 : ℝ) - 273.15 = 20 by norm_num]
  generalize 1e-10 * (292.75 / 293.15) * (3.7345 - 0.0401 * ((10:ℝ) ^ 8 / w ^ 2)) = f at *
  have h1 : vapourPressure 20 < Spec.saturationPressure 20 / 10 := by
    linarith [vapour_twenty, saturation_twenty]
  have h2 := mul_lt_mul_of_pos_left h1 (show 0 < rh / 100 by linarith)
  have h3 := mul_lt_mul_of_pos_left h2 hf
  linarith

/-- C164 is false: the saturation pressure is evaluated at the temperature in Celsius. -/
theorem C164_refuted : ¬ C164_Statement := by
  intro h
  have h1 := h 293.15 101325 50 5000 (by constructor <;> norm_num) (by norm_num)
  have h2 := C164_small_partial (p := 101325) (rh := 50) (w := 5000) (by norm_num) (by norm_num)
  have h3 := (C164_humidity_partial (T := 293.15) (p := 101325) (rh := 0) (rh' := 50) (w := 5000)
    (by constructor <;> norm_num) (by constructor <;> norm_num) (by norm_num) (by norm_num)).1
  linarith

/-- The hypotheses of `C164_small_partial` met by half-saturated air. -/
example := C164_small_partial (p := 101325) (rh := 50) (w := 6563) (by norm_num) (by norm_num)

end Rascal
