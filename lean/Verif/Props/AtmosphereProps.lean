import Verif.Proofs.AtmosLemmas
import Verif.Proofs.LoadMain
import Verif.Spec.Conditions
import Mathlib.Order.Monotone.Basic

/-!
Property theorems C09-C14: air and vacuum wavelengths.
-/

set_option linter.unusedSectionVars false

namespace Rascal

/-- The default conditions of the functions (0 Celsius, one atmosphere, dry) are admissible. -/
theorem defaultConditions : Spec.Conditions 273.15 101325 0 := by
  constructor <;> norm_num

/-- A warm and humid site. -/
example : Spec.Conditions 300 77000 85 := by constructor <;> norm_num

/-- The index in the form used by the estimates. -/
theorem index_form {T p rh : ℝ} (h : Spec.Conditions T p rh) :
    ∃ κ m k, AtmosBounds κ m k ∧ ∀ w, refractiveIndex T p rh w = idx κ m k (sOf w) := by
  refine ⟨_, _, _, atmosBounds (t := T - 273.15) (p := p) (rh := rh) ?_ ?_ h.pressure_nonneg
    h.pressure_le h.humidity_nonneg h.humidity_le, fun w => ?_⟩
  · have := h.cold; norm_num at *; linarith
  · have := h.hot; norm_num at *; linarith
  · unfold refractiveIndex
    exact edlen_eq _ _ _ _

section
variable {T p rh : ℝ}

theorem vacuumToAir_lt (h : Spec.Conditions T p rh) {w w' : ℝ} (hw : 1990 ≤ w) (hlt : w < w') :
    vacuumToAir T p rh w < vacuumToAir T p rh w' := by
  obtain ⟨κ, m, k, hb, he⟩ := index_form h
  unfold vacuumToAir
  rw [he, he]
  exact vta_lt hb hw hlt

/-- C10. -/
theorem C10_vacuum_to_air (h : Spec.Conditions T p rh) {w w' : ℝ} (hw : 2000 ≤ w) (hlt : w < w') :
    0 < vacuumToAir T p rh w ∧ vacuumToAir T p rh w < vacuumToAir T p rh w' := by
  refine ⟨?_, vacuumToAir_lt h (by linarith) hlt⟩
  obtain ⟨κ, m, k, hb, he⟩ := index_form h
  unfold vacuumToAir
  rw [he]
  have := idx_pos hb (sOf_pos (w := w) (by linarith)).le (by have := sOf_le' hw; linarith)
  have : 0 < w := by linarith
  positivity

/-- The hypotheses of `C10_vacuum_to_air` met at a warm and humid site. -/
example : vacuumToAir 300 77000 85 5000 < vacuumToAir 300 77000 85 5001 :=
  (C10_vacuum_to_air (by constructor <;> norm_num) (by norm_num) (by norm_num)).2

/-- C10 for a whole list: the order of a line list survives the conversion. -/
theorem C10_list (h : Spec.Conditions T p rh) (ws : List ℝ) (h2 : ∀ w ∈ ws, 2000 ≤ w)
    (hs : ws.Pairwise (· < ·)) : (ws.map (vacuumToAir T p rh)).Pairwise (· < ·) := by
  rw [List.pairwise_map]
  exact hs.imp_of_mem fun ha _ hab => (C10_vacuum_to_air h (h2 _ ha) hab).2

/-- The hypotheses of `C10_list` met by three lines. -/
example : (([4000, 5000, 5001] : List ℝ).map (vacuumToAir 273.15 101325 0)).Pairwise (· < ·) :=
  C10_list defaultConditions [4000, 5000, 5001] (by
    intro w hw
    simp only [List.mem_cons, List.not_mem_nil, or_false] at hw
    rcases hw with rfl | rfl | rfl <;> norm_num) (by norm_num)

/-- C11. -/
theorem C11_air_to_vacuum (h : Spec.Conditions T p rh) {w w' : ℝ} (hw : 2000 ≤ w) (hlt : w < w') :
    0 < airToVacuum T p rh w ∧ airToVacuum T p rh w < airToVacuum T p rh w' := by
  obtain ⟨κ, m, k, hb, he⟩ := index_form h
  unfold airToVacuum
  rw [he, he]
  have := idx_pos hb (sOf_pos (w := w) (by linarith)).le (by have := sOf_le' hw; linarith)
  have : 0 < w := by linarith
  exact ⟨by positivity, atv_lt hb (by linarith) hlt⟩

example : vacuumToAir 273.15 101325 0 5000 < vacuumToAir 273.15 101325 0 5000.1 :=
  (C10_vacuum_to_air defaultConditions (by norm_num) (by norm_num)).2

/-! ### C12 -/

theorem near_two_thousand {κ m k : ℝ} (hb : AtmosBounds κ m k) {w : ℝ} (hw : 2000 ≤ w) :
    1990 ≤ w / idx κ m k (sOf w) ∧ 1990 ≤ w * idx κ m k (sOf w) := by
  have h0 := sOf_pos (w := w) (by linarith)
  have h1 := sOf_le' hw
  obtain ⟨b1, b2⟩ := idx_bounds hb h0.le (s := sOf w) (by linarith)
  have hp := idx_pos hb h0.le (s := sOf w) (by linarith)
  norm_num at b1 b2
  constructor
  · rw [le_div_iff₀ hp]; nlinarith
  · nlinarith

/-- C12: both round trips return the wavelength with a relative error below one part in a
million. -/
theorem C12_round_trip (h : Spec.Conditions T p rh) {w : ℝ} (hw : 2000 ≤ w) :
    |airToVacuum T p rh (vacuumToAir T p rh w) - w| ≤ 1e-6 * w ∧
    |vacuumToAir T p rh (airToVacuum T p rh w) - w| ≤ 1e-6 * w := by
  obtain ⟨κ, m, k, hb, he⟩ := index_form h
  have h0 := sOf_pos (w := w) (by linarith)
  have h1 := sOf_le' hw
  have hp := idx_pos hb h0.le (s := sOf w) (by linarith)
  obtain ⟨n1, n2⟩ := near_two_thousand hb hw
  have hw0 : 0 < w := by linarith
  constructor
  · have hc := idx_scaled hb (w := w) (c := w / idx κ m k (sOf w)) (by linarith) n1
      (sOf_div_close hb (by linarith))
    unfold airToVacuum vacuumToAir
    rw [he, he]
    have e : w / idx κ m k (sOf w) * idx κ m k (sOf (w / idx κ m k (sOf w))) - w =
        w * (idx κ m k (sOf (w / idx κ m k (sOf w))) / idx κ m k (sOf w) - 1) := by
      field_simp
    rw [e, abs_mul, abs_of_pos hw0, mul_comm]
    apply mul_le_mul_of_nonneg_right _ hw0.le
    norm_num at hc ⊢
    linarith
  · have hs := sOf_mul_close hb (w := w) (by linarith)
    have hc := idx_scaled hb (w := w * idx κ m k (sOf w)) (c := w) n2 (by linarith)
      (by rw [abs_sub_comm]; exact hs)
    unfold airToVacuum vacuumToAir
    rw [he, he]
    have hp2 := idx_pos hb (s := sOf (w * idx κ m k (sOf w))) (sOf_pos (by linarith)).le
      (by have := sOf_le n2; linarith)
    have e : w * idx κ m k (sOf w) / idx κ m k (sOf (w * idx κ m k (sOf w))) - w =
        w * (idx κ m k (sOf w) / idx κ m k (sOf (w * idx κ m k (sOf w))) - 1) := by
      rw [mul_sub, mul_one, mul_div_assoc]
    rw [e, abs_mul, abs_of_pos hw0, mul_comm]
    apply mul_le_mul_of_nonneg_right _ hw0.le
    norm_num at hc ⊢
    linarith

/-- The hypotheses of `C12_round_trip` met for a line at 6563 Angstrom. -/
example : |airToVacuum 273.15 101325 0 (vacuumToAir 273.15 101325 0 6563) - 6563| ≤ 1e-6 * 6563 :=
  (C12_round_trip defaultConditions (by norm_num)).1

theorem kappa_strict {t p p' : ℝ} (h0 : -50 ≤ t) (h1 : t ≤ 100) (p0 : 0 ≤ p) (hp : p < p')
    (p1 : p' ≤ 110000) : kappa t p < kappa t p' := by
  unfold kappa
  have hG : (0:ℝ) < 1 + 0.003661 * t := by norm_num; linarith
  rw [div_lt_div_iff_of_pos_right (by norm_num), ← mul_div_assoc, ← mul_div_assoc,
    div_lt_div_iff_of_pos_right hG]
  have he : -1e-8 ≤ 1e-8 * (0.601 - 0.00972 * t) := by norm_num; linarith
  generalize 1e-8 * (0.601 - 0.00972 * t) = e at *
  have e1 : p' * (1 + e * p') - p * (1 + e * p) = (p' - p) * (1 + e * (p + p')) := by ring
  have e2 : 0 < 1 + e * (p + p') := by
    have : -1e-8 * (p + p') ≤ e * (p + p') := mul_le_mul_of_nonneg_right he (by linarith)
    norm_num at this
    linarith
  have := mul_pos (sub_pos.2 hp) e2
  linarith

theorem kappa_zero (t : ℝ) : kappa t 0 = 0 := by simp [kappa]

theorem index_dry (T p w : ℝ) : refractiveIndex T p 0 w = 1 + kappa (T - 273.15) p * disp (sOf w) := by
  unfold refractiveIndex
  rw [edlen_eq]
  simp [vapourPartialPressure, idx]

/-- C12, the two functions are not exact inverses: in dry air of positive pressure the round trip
always ends above the starting point. -/
theorem C12_not_exact (h : Spec.Conditions T p 0) (hp : 0 < p) {w : ℝ} (hw : 2000 ≤ w) :
    w < airToVacuum T p 0 (vacuumToAir T p 0 w) := by
  have hT0 : -50 ≤ T - 273.15 := by have := h.cold; norm_num at *; linarith
  have hT1 : T - 273.15 ≤ 100 := by have := h.hot; norm_num at *; linarith
  have hk : 0 < kappa (T - 273.15) p := by
    have := kappa_strict hT0 hT1 le_rfl hp h.pressure_le
    rwa [kappa_zero] at this
  unfold airToVacuum vacuumToAir
  rw [index_dry, index_dry]
  have hd := disp_pos (s := sOf w) (by have := sOf_le' hw; linarith)
  have hn : 1 < 1 + kappa (T - 273.15) p * disp (sOf w) := by nlinarith [mul_pos hk hd]
  have hn' : 1 + kappa (T - 273.15) p * disp (sOf w) ≤ 1 + 4.7e-4 := by
    have h1 := (kappa_bounds hT0 hT1 h.pressure_nonneg h.pressure_le).2
    have h2 := disp_le (s := sOf w) (by have := sOf_le' hw; linarith)
    have := mul_le_mul h1 h2 hd.le (by norm_num)
    norm_num at *; linarith
  generalize hnn : 1 + kappa (T - 273.15) p * disp (sOf w) = n at *
  have hw0 : 0 < w := by linarith
  have hlt : w / n < w := by rw [div_lt_iff₀ (by linarith)]; nlinarith
  have h19 : 1990 ≤ w / n := by
    rw [le_div_iff₀ (by linarith)]; norm_num at hn'; nlinarith
  have hs := sOf_lt (w := w / n) (by linarith) hlt
  have hdl := disp_lt hs (by have := sOf_le h19; linarith)
  have : n < 1 + kappa (T - 273.15) p * disp (sOf (w / n)) := by
    rw [← hnn, ← hnn] at *
    have := mul_lt_mul_of_pos_left hdl hk
    linarith
  calc w = w / n * n := by field_simp
    _ < _ := mul_lt_mul_of_pos_left this (by linarith)

/-- The hypotheses of `C12_not_exact` met for a line at 6563 Angstrom. -/
example : 6563 < airToVacuum 273.15 101325 0 (vacuumToAir 273.15 101325 0 6563) :=
  C12_not_exact defaultConditions (by norm_num) (by norm_num)

/-! ### C13 -/

theorem sOf_le_1700 {w : ℝ} (hw : 1700 < w) : sOf w ≤ 34.7 := by
  rw [sOf_eq, div_le_iff₀ (by positivity)]
  nlinarith

/-- C13, dry air: the index is at least one, so the air wavelength never exceeds the vacuum
wavelength. -/
theorem C13_index_ge_one (h : Spec.Conditions T p 0) {w : ℝ} (hw : 1700 < w) :
    1 ≤ refractiveIndex T p 0 w ∧ vacuumToAir T p 0 w ≤ w ∧ w ≤ airToVacuum T p 0 w := by
  have hT0 : -50 ≤ T - 273.15 := by have := h.cold; norm_num at *; linarith
  have hT1 : T - 273.15 ≤ 100 := by have := h.hot; norm_num at *; linarith
  have h1 : 1 ≤ refractiveIndex T p 0 w := by
    rw [index_dry]
    have := mul_nonneg (kappa_bounds hT0 hT1 h.pressure_nonneg h.pressure_le).1
      (disp_pos (s := sOf w) (by have := sOf_le_1700 hw; norm_num at *; linarith)).le
    linarith
  refine ⟨h1, ?_, ?_⟩
  · unfold vacuumToAir
    rw [div_le_iff₀ (by linarith)]
    nlinarith
  · unfold airToVacuum
    nlinarith

/-- The hypotheses of `C13_index_ge_one` met at half the standard pressure. -/
example : 1 ≤ refractiveIndex 300 50000 0 1800 :=
  (C13_index_ge_one (by constructor <;> norm_num) (by norm_num)).1

/-- C13: at any humidity the index increases strictly with pressure. -/
theorem C13_pressure {p' : ℝ} (h : Spec.Conditions T p rh) (h' : Spec.Conditions T p' rh)
    (hp : p < p') {w : ℝ} (hw : 1700 < w) :
    refractiveIndex T p rh w < refractiveIndex T p' rh w := by
  have hT0 : -50 ≤ T - 273.15 := by have := h.cold; norm_num at *; linarith
  have hT1 : T - 273.15 ≤ 100 := by have := h.hot; norm_num at *; linarith
  unfold refractiveIndex
  rw [edlen_eq, edlen_eq]
  unfold idx
  have := mul_lt_mul_of_pos_right (kappa_strict hT0 hT1 h.pressure_nonneg hp h'.pressure_le)
    (disp_pos (s := sOf w) (by have := sOf_le_1700 hw; norm_num at *; linarith))
  linarith

/-- The hypotheses of `C13_pressure` met by the pressures of a mountain site and of sea level. -/
example : refractiveIndex 280 77000 20 5000 < refractiveIndex 280 101325 20 5000 :=
  C13_pressure (by constructor <;> norm_num) (by constructor <;> norm_num) (by norm_num) (by norm_num)

/-- C13: without air the index is one and both conversions are the identity. -/
theorem C13_no_air (T w : ℝ) :
    refractiveIndex T 0 0 w = 1 ∧ vacuumToAir T 0 0 w = w ∧ airToVacuum T 0 0 w = w := by
  have : refractiveIndex T 0 0 w = 1 := by rw [index_dry, kappa_zero]; ring
  exact ⟨this, by simp [vacuumToAir, this], by simp [airToVacuum, this]⟩

example : vacuumToAir 273.15 101325 0 6563 ≤ 6563 :=
  (C13_index_ge_one defaultConditions (by norm_num)).2.1

end

/-! ### C14 -/

/-- The documented behaviour, in particular for the Celsius temperatures the conversions pass. -/
def C14_Statement : Prop :=
  ∀ t t' : ℝ, 0 ≤ t → t < t' → t' ≤ 100 → vapourPressure t < vapourPressure t'

/-- C14 is false: the value for 20 Celsius is below the value for 0 Celsius. -/
theorem C14_refuted : ¬ C14_Statement := by
  intro h
  have h1 := h 0 20 le_rfl (by norm_num) (by norm_num)
  obtain ⟨o0, o1⟩ := vpOmega_bounds (t := 0) (by norm_num) (by norm_num)
  obtain ⟨q0, q1⟩ := vpOmega_bounds (t := 20) (by norm_num) (by norm_num)
  unfold vapourPressure at h1
  generalize vpOmega 0 = o at *
  generalize vpOmega 20 = q at *
  norm_num at o0 o1 q0 q1
  obtain ⟨_, hB, hC, _⟩ := vp_signs (o := q) (by linarith) (by linarith)
  obtain ⟨_, hX, hX2⟩ := vp_defined (o := q) (by linarith) (by linarith)
  obtain ⟨_, hB0, hC0, _⟩ := vp_signs (o := o) (by linarith) (by linarith)
  obtain ⟨hD0, hX0, _⟩ := vp_defined (o := o) (by linarith) (by linarith)
  have hq : 2 * vpC q / vpX q ≤ 0.11 := by
    rw [div_le_iff₀ hX]
    have : vpC q ≤ 0.11 * -vpB q := by
      unfold vpC vpB; norm_num; nlinarith
    norm_num at *; linarith
  have ho : 0.115 ≤ 2 * vpC o / vpX o := by
    rw [le_div_iff₀ hX0]
    have hs : Real.sqrt (vpDisc o) ≤ 3700000 := by
      rw [Real.sqrt_le_left (by norm_num)]
      have a1 : |vpB o| ≤ 3233000 := by
        rw [abs_of_neg hB0]; unfold vpB; norm_num; nlinarith
      have a2 : -vpA o ≤ 724300 := by unfold vpA; norm_num; nlinarith
      have a3 : vpC o ≤ 405200 := by unfold vpC; norm_num; nlinarith
      have a4 : vpB o ^ 2 ≤ 3233000 ^ 2 := by rw [← sq_abs]; gcongr
      have a5 : -vpA o * vpC o ≤ 724300 * 405200 := mul_le_mul a2 a3 hC0.le (by norm_num)
      unfold vpDisc
      norm_num at a4 a5 ⊢
      linarith
    have hb : -vpB o ≤ 3233000 := by unfold vpB; norm_num; nlinarith
    have hc : 405000 ≤ vpC o := by unfold vpC; norm_num; nlinarith
    have hx : vpX o ≤ 6933000 := by unfold vpX; linarith
    norm_num; linarith
  have h3 : 0 ≤ 2 * vpC q / vpX q := by positivity
  have : (2 * vpC q / vpX q) ^ 4 ≤ (2 * vpC o / vpX o) ^ 4 := by
    apply pow_le_pow_left₀ h3
    norm_num at hq ho; linarith
  linarith

/-- The NIST saturation pressure at a temperature in Celsius: the same formula, evaluated at the
absolute temperature (https://emtoolbox.nist.gov/Wavelength/Documentation.asp, appendix A.I). -/
noncomputable def Spec.saturationPressure (celsius : ℝ) : ℝ :=
  let T := celsius + 273.15
  let ω := T - 0.238555575678 / (T - 650.175348448)
  let A := ω ^ 2 + 1167.05214528 * ω - 724213.167032
  let B := -17.0738469401 * ω ^ 2 + 12020.8247025 * ω - 3232555.03223
  let C := 14.9151086135 * ω ^ 2 - 4823.26573616 * ω + 405113.405421
  1e6 * (2 * C / (-B + Real.sqrt (B ^ 2 - 4 * A * C))) ^ 4

/-- C14, what holds: the function is the NIST formula for a temperature given in *Kelvin*.  What is
missing: the conversions pass Celsius. -/
theorem C14_kelvin_partial (T : ℝ) : vapourPressure T = Spec.saturationPressure (T - 273.15) := by
  unfold vapourPressure Spec.saturationPressure vpX vpDisc vpA vpB vpC vpOmega
  dsimp only
  rw [sub_add_cancel]
  norm_num
  ring_nf

/-- C14, what holds: for Celsius temperatures from -50 to 100 the value is well defined (no root of a
negative number, no division by zero), positive and at most 1000 Pa. -/
theorem C14_defined_partial {t : ℝ} (h0 : -50 ≤ t) (h1 : t ≤ 100) :
    0 < vpDisc (vpOmega t) ∧ 0 < vpX (vpOmega t) ∧ 0 < vapourPressure t ∧
      vapourPressure t ≤ 1000 := by
  obtain ⟨o0, o1⟩ := vpOmega_bounds h0 h1
  obtain ⟨hD, hX, _⟩ := vp_defined (o := vpOmega t) (by linarith) (by linarith)
  exact ⟨hD, hX, vapourPressure_bounds h0 h1⟩

/-- The hypotheses of `C14_defined_partial` met at 20 degrees. -/
example : 0 < vapourPressure 20 := (C14_defined_partial (by norm_num) (by norm_num)).2.2.1

/-- C14, what holds: the partial pressure is proportional to the humidity. -/
theorem C14_humidity_partial (c rh v : ℝ) :
    vapourPartialPressure (c * rh) v = c * vapourPartialPressure rh v ∧
      vapourPartialPressure 100 v = v ∧ vapourPartialPressure 0 v = 0 := by
  refine ⟨?_, ?_, ?_⟩ <;> unfold vapourPartialPressure <;> ring

/-- `C14_humidity_partial` with numbers. -/
example : vapourPartialPressure (2 * 30) 1000 = 2 * vapourPartialPressure 30 1000 := (C14_humidity_partial 2 30 1000).1

/-! ### C09 -/

section
variable {T p rh : ℝ}

theorem mem_takeIdx_list {α : Type _} {l : List α} {idx : List Nat} {a : α} (h : a ∈ takeIdx l idx) :
    a ∈ l := by
  unfold takeIdx at h
  obtain ⟨i, _, hi⟩ := List.mem_filterMap.1 h
  exact List.mem_of_getElem? hi

/-- The air wavelength of a line at a converted limit is the limit up to the round-trip error. -/
theorem air_limit (h : Spec.Conditions T p rh) {x : ℝ} (hx : 2000 ≤ x) :
    1990 ≤ airToVacuum T p rh x ∧
    x * (1 - 1e-6) ≤ vacuumToAir T p rh (airToVacuum T p rh x) ∧
    vacuumToAir T p rh (airToVacuum T p rh x) ≤ x * (1 + 1e-6) := by
  have h2 := (C12_round_trip h hx).2
  rw [abs_le] at h2
  refine ⟨?_, by linarith [h2.1], by linarith [h2.2]⟩
  obtain ⟨κ, m, k, hb, he⟩ := index_form h
  unfold airToVacuum
  rw [he]
  exact (near_two_thousand hb hx).2

/-- C09, soundness: with `vacuum=False` every returned wavelength is within the requested air limits
up to one part in a million, whatever the other arguments are. -/
theorem C09_air_limits (h : Spec.Conditions T p rh) (argsort : List ℝ → List Nat)
    (lines : List (Row ℝ)) (elements : List String) {lo hi : ℝ} (hlo : 2000 ≤ lo) (hlh : lo ≤ hi)
    (mi : MinIntensity ℝ) (minDistance : ℝ) (brightest : Option Int) (r : LineArrays ℝ)
    (hr : loadCalibrationLines argsort (airToVacuum T p rh) (vacuumToAir T p rh) lines elements lo hi
      mi minDistance false brightest = .ok r) :
    ∀ w ∈ r.wls, lo * (1 - 1e-6) ≤ w ∧ w ≤ hi * (1 + 1e-6) := by
  by_cases hv : Spec.ThresholdsFit elements mi
  swap
  · rw [load_badThresholds _ _ _ _ _ _ _ _ _ _ _ hv] at hr
    simp at hr
  obtain ⟨sel, hs, hm, heq⟩ := load_eq argsort (airToVacuum T p rh) (vacuumToAir T p rh) lines
    elements lo hi mi minDistance false brightest hv
  rw [heq] at hr
  dsimp only at hr
  cases hd : loadDistanceMask ((brightRows argsort brightest sel).map Row.wl) minDistance with
  | error e => rw [hd] at hr; simp at hr
  | ok dmask =>
    rw [hd] at hr
    have hr := Except.ok.inj hr
    subst hr
    intro w hw
    simp only [Bool.false_eq_true, if_false, List.mem_map] at hw
    obtain ⟨v, ⟨row, hrow, rfl⟩, rfl⟩ := hw
    have hrow : row ∈ brightRows argsort brightest sel := by
      obtain ⟨i, hi, _⟩ := (mem_boolMask _ _ _).1 hrow
      exact List.mem_of_getElem? hi
    have hsel : row ∈ sel := by
      unfold brightRows at hrow
      cases brightest with
      | none => exact hrow
      | some n => exact mem_takeIdx_list hrow
    obtain ⟨_, h1, h2, _⟩ := (hm row).1 hsel
    simp only [Bool.false_eq_true, if_false] at h1 h2
    obtain ⟨a1, a2, a3⟩ := air_limit h hlo
    obtain ⟨b1, b2, b3⟩ := air_limit h (hlo.trans hlh)
    constructor
    · refine a2.trans ?_
      rcases h1.eq_or_lt with e | hlt
      · rw [e]
      · exact (vacuumToAir_lt h a1 hlt).le
    · refine le_trans ?_ b3
      rcases h2.eq_or_lt with e | hlt
      · rw [e]
      · exact (vacuumToAir_lt h (a1.trans h1) hlt).le

/-- C09, completeness and order: without distance and brightness limits, every bright enough line of a
requested element whose air wavelength is inside the limits (by one part in a million) is returned,
at its air wavelength, and the air wavelengths come in increasing order. -/
theorem C09_air_complete (h : Spec.Conditions T p rh) (argsort : List ℝ → List Nat)
    (lines : List (Row ℝ)) (elements : List String) {lo hi : ℝ} (hlo : 2000 ≤ lo) (hlh : lo ≤ hi)
    (mi : MinIntensity ℝ) (hv : Spec.ThresholdsFit elements mi) (minDistance : ℝ)
    (hd : ¬ 0 < minDistance) :
    ∃ r, loadCalibrationLines argsort (airToVacuum T p rh) (vacuumToAir T p rh) lines elements lo hi
        mi minDistance false none = .ok r ∧
      r.wls.Pairwise (· < ·) ∧
      ∀ row, Spec.FirstWith Row.wl (lines.filter (fun q => elements.contains q.elem)) row →
        Spec.BrightEnough elements mi row → 2000 ≤ row.wl →
        lo * (1 + 1e-6) < vacuumToAir T p rh row.wl → vacuumToAir T p rh row.wl < hi * (1 - 1e-6) →
        vacuumToAir T p rh row.wl ∈ r.wls := by
  obtain ⟨sel, hs, hm, heq⟩ := load_eq argsort (airToVacuum T p rh) (vacuumToAir T p rh) lines
    elements lo hi mi minDistance false none hv
  obtain ⟨a1, a2, a3⟩ := air_limit h hlo
  obtain ⟨b1, b2, b3⟩ := air_limit h (hlo.trans hlh)
  refine ⟨⟨sel.map Row.elem, (sel.map Row.wl).map (vacuumToAir T p rh), sel.map Row.inten⟩,
    heq.trans ?_, ?_, ?_⟩
  · simp only [loadDistanceMask, if_neg hd, brightRows, List.map_map]
    rw [show ((fun _ => true) ∘ Row.wl : Row ℝ → Bool) = (fun _ => true) from rfl,
      boolMask_map_pred]
    simp
  · dsimp only
    rw [List.pairwise_map]
    refine hs.imp_of_mem fun ha _ hab => vacuumToAir_lt h ?_ hab
    obtain ⟨row, hrow, rfl⟩ := List.mem_map.1 ha
    have := ((hm row).1 hrow).2.1
    simp only [Bool.false_eq_true, if_false] at this
    exact a1.trans this
  · intro row hf hbr h2 hl hh
    refine List.mem_map.2 ⟨row.wl, List.mem_map.2 ⟨row, (hm row).2 ⟨hf, ?_, ?_, hbr⟩, rfl⟩, rfl⟩
    · simp only [Bool.false_eq_true, if_false]
      by_contra hc
      have := vacuumToAir_lt h (by linarith) (not_le.1 hc)
      linarith
    · simp only [Bool.false_eq_true, if_false]
      by_contra hc
      have := vacuumToAir_lt h b1 (not_le.1 hc)
      linarith

/-- A concrete use of `C09_air_limits` and `C09_air_complete`: one argon line at 5000 Angstrom (vacuum), air limits 4000 and 6000,
default conditions. -/
example : ∃ r, loadCalibrationLines stableArgsort (airToVacuum 273.15 101325 0)
      (vacuumToAir 273.15 101325 0) [⟨"Ar", 5000, 90⟩] ["Ar"] 4000 6000 (.scalar 10) 0 false none =
      .ok r ∧ vacuumToAir 273.15 101325 0 5000 ∈ r.wls := by
  obtain ⟨r, h1, _, h3⟩ := C09_air_complete defaultConditions stableArgsort [⟨"Ar", 5000, 90⟩] ["Ar"]
    (lo := 4000) (hi := 6000) (by norm_num) (by norm_num) (.scalar 10)
    (by intro vs h; cases h) 0 (by norm_num)
  refine ⟨r, h1, ?_⟩
  have hn := C13_index_ge_one defaultConditions (w := 5000) (by norm_num)
  obtain ⟨κ, m, k, hb, he⟩ := index_form defaultConditions
  have hu := (idx_bounds hb (s := sOf 5000) (sOf_pos (by norm_num)).le
    (by rw [sOf_eq]; norm_num)).2
  rw [← he] at hu
  refine h3 ⟨"Ar", 5000, 90⟩ ⟨[], [], by simp, by simp⟩ ?_ (by norm_num) ?_ ?_
  · show (10:ℝ) ≤ 90
    norm_num
  · show _ < (5000:ℝ) / _
    rw [lt_div_iff₀ (by linarith [hn.1])]
    norm_num at hu ⊢
    linarith
  · have := hn.2.1
    norm_num at this ⊢
    linarith

end

end Rascal
