import Verif.Props.AtmosphereProps
import Verif.Props.BrightDistanceProps

/-!
Property theorem C218: loading lines in air and in vacuum, and the minimum distance of lines in air.
-/

set_option linter.unusedSectionVars false

namespace Rascal

/-- The same arrays with the wavelengths converted. -/
def Spec.converted {K : Type _} (f : K → K) (a : LineArrays K) : LineArrays K := ⟨a.elems, a.wls.map f, a.intens⟩

/-- C218.  Loading with `vacuum=False` is loading with `vacuum=True` between the converted limits and converting the
wavelengths found; thresholds, `min_distance` and `brightest_n_lines` act on the vacuum wavelengths, and the
exceptions are the same. -/
theorem C218_air_is_converted {K : Type _} [AddCommGroup K] [LinearOrder K] (argsort : List K → List Nat)
    (airToVac vacToAir : K → K) (lines : List (Row K)) (elements : List String) (lo hi : K) (mi : MinIntensity K)
    (d : K) (b : Option Int) :
    loadCalibrationLines argsort airToVac vacToAir lines elements lo hi mi d false b =
      (loadCalibrationLines argsort airToVac vacToAir lines elements (airToVac lo) (airToVac hi) mi d true b).map
        (Spec.converted vacToAir) := by
  unfold loadCalibrationLines loadSelected
  dsimp only
  rw [if_neg (by decide), if_neg (by decide), if_pos rfl, if_pos rfl]
  cases loadIntensityMask elements _ mi with
  | error e => rfl
  | ok imask =>
    dsimp only
    cases loadDistanceMask _ d with
    | error e => rfl
    | ok dmask => rfl

/-- Two of three lines between limits, one of them too faint. -/
example : loadCalibrationLines stableArgsort (fun x => x + 3) (fun x => x - 3)
      [⟨"He", 14, 9⟩, ⟨"He", 20, 1⟩, ⟨"He", 25, (9 : ℤ)⟩] ["He"] 10 20 (.scalar 4) 0 false none =
      .ok ⟨["He"], [11], [9]⟩ ∧
    loadCalibrationLines stableArgsort (fun x => x + 3) (fun x => x - 3)
      [⟨"He", 14, 9⟩, ⟨"He", 20, 1⟩, ⟨"He", 25, (9 : ℤ)⟩] ["He"] 13 23 (.scalar 4) 0 true none =
      .ok ⟨["He"], [14], [9]⟩ := by decide +kernel

variable {T p rh : ℝ}

/-- Two wavelengths in air are at least as far apart as in vacuum, up to a factor of `1 - 4.7e-4`. -/
theorem air_gap (h : Spec.Conditions T p rh) {w w' : ℝ} (hw : 1990 ≤ w) (hlt : w < w') :
    (w' - w) * (1 - 4.7e-4) ≤ vacuumToAir T p rh w' - vacuumToAir T p rh w := by
  obtain ⟨κ, m, k, hb, he⟩ := index_form h
  unfold vacuumToAir
  rw [he, he]
  have s1 := sOf_le hw
  have s2 := sOf_le (w := w') (by linarith)
  have z1 := (sOf_pos (w := w) (by linarith)).le
  have z2 := (sOf_pos (w := w') (by linarith)).le
  norm_num at s1 s2
  have hm := idx_mono hb (sOf_lt (w := w) (by linarith) hlt).le (by linarith)
  have p1 := idx_pos hb z1 (by linarith)
  have p2 := idx_pos hb z2 (by linarith)
  obtain ⟨_, b2⟩ := idx_bounds hb z2 (by linarith)
  generalize idx κ m k (sOf w) = n at *
  generalize idx κ m k (sOf w') = n' at *
  have h1 : w / n ≤ w / n' := div_le_div_of_nonneg_left (by linarith) p2 hm
  have h2 : (w' - w) * (1 - 4.7e-4) ≤ (w' - w) / n' := by
    rw [le_div_iff₀ p2, mul_assoc]
    have : (1 - 4.7e-4) * n' ≤ 1 := by
      have : (1 - 4.7e-4 : ℝ) * n' ≤ (1 - 4.7e-4) * (1 + 4.7e-4) :=
        mul_le_mul_of_nonneg_left b2 (by norm_num)
      refine this.trans (by norm_num)
    nlinarith
  rw [sub_div] at h2
  linarith

/-- The documented behaviour: with `min_distance` no two lines are closer than that, in air as in vacuum. -/
def C218_Statement : Prop :=
  ∀ (T p rh : ℝ), Spec.Conditions T p rh → ∀ (argsort : List ℝ → List Nat), IsArgsort argsort →
  ∀ (lines : List (Row ℝ)) (elements : List String) (lo hi : ℝ) (mi : MinIntensity ℝ) (d : ℝ) (r : LineArrays ℝ),
    2000 ≤ lo → lo ≤ hi → 0 < d →
    loadCalibrationLines argsort (airToVacuum T p rh) (vacuumToAir T p rh) lines elements lo hi mi d false none =
      .ok r → ∀ w ∈ r.wls, ∀ w' ∈ r.wls, w ≠ w' → d ≤ |w' - w|

/-- C218, distance.  With `min_distance` and without a limit on the number of lines, the lines returned in air are
at least 0.99953 times `min_distance` apart, for all conditions.  Missing: the distance itself, which holds in
vacuum. -/
theorem C218_distance_partial (h : Spec.Conditions T p rh) (argsort : List ℝ → List Nat) (lines : List (Row ℝ))
    (elements : List String) {lo hi : ℝ} (hlo : 2000 ≤ lo) (mi : MinIntensity ℝ) (d : ℝ) (hd : 0 < d)
    (r : LineArrays ℝ)
    (hr : loadCalibrationLines argsort (airToVacuum T p rh) (vacuumToAir T p rh) lines elements lo hi mi d false
      none = .ok r) :
    r.wls.Pairwise (fun x y => d * (1 - 4.7e-4) ≤ y - x) := by
  by_cases hv : Spec.ThresholdsFit elements mi
  swap
  · rw [load_badThresholds _ _ _ _ _ _ _ _ _ _ _ hv] at hr
    simp at hr
  rw [C218_air_is_converted] at hr
  obtain ⟨sel, hmem, hsort, c0, c1, c2⟩ := C07_min_distance_partial argsort (airToVacuum T p rh)
    (vacuumToAir T p rh) lines elements (airToVacuum T p rh lo) (airToVacuum T p rh hi) mi d hd hv
  rcases Nat.lt_or_ge sel.length 2 with hl | hl
  · have : sel.length = 0 ∨ sel.length = 1 := by omega
    rcases this with h0 | h1
    · rw [c0 h0] at hr; cases hr
    · rw [c1 h1] at hr; cases hr; exact List.Pairwise.nil
  · obtain ⟨out, ho, hsub, _, hap⟩ := c2 hl
    rw [ho] at hr
    cases hr
    show List.Pairwise _ ((out.map Row.wl).map (vacuumToAir T p rh))
    have hso : (out.map Row.wl).Pairwise (· < ·) := hsort.sublist (hsub.map _)
    rw [List.pairwise_map]
    refine (hap.and hso).imp_of_mem ?_
    intro x y hx _ hxy
    obtain ⟨q, hq, rfl⟩ := List.mem_map.1 hx
    have hq' := ((hmem q).1 (hsub.subset hq)).2.1
    have h1990 : 1990 ≤ q.wl := by
      obtain ⟨κ, m, k, hb, he⟩ := index_form h
      refine le_trans ?_ hq'
      unfold airToVacuum
      rw [he]
      exact (near_two_thousand hb hlo).2
    refine le_trans ?_ (air_gap h h1990 hxy.2)
    refine mul_le_mul_of_nonneg_right ?_ (by norm_num)
    have := hxy.1
    rwa [abs_of_pos (by linarith [hxy.2])] at this

/-- The two lines of the refutation. -/
theorem gap_5000 : vacuumToAir 273.15 101325 0 5010 - vacuumToAir 273.15 101325 0 5000 < 10 ∧
    vacuumToAir 273.15 101325 0 5000 < vacuumToAir 273.15 101325 0 5010 := by
  refine ⟨?_, vacuumToAir_lt defaultConditions (by norm_num) (by norm_num)⟩
  unfold vacuumToAir
  rw [index_dry, index_dry]
  unfold kappa disp
  rw [sOf_eq, sOf_eq]
  norm_num

/-- Both lines are returned when a minimum distance of 10 Angstrom is asked for. -/
theorem two_lines_air : ∃ r, loadCalibrationLines (K := ℝ) stableArgsort (airToVacuum 273.15 101325 0)
      (vacuumToAir 273.15 101325 0) [⟨"He", 5000, 1⟩, ⟨"He", 5010, 1⟩] ["He"] 4000 6000 .none 10 false none = .ok r ∧
    vacuumToAir 273.15 101325 0 5000 ∈ r.wls ∧ vacuumToAir 273.15 101325 0 5010 ∈ r.wls := by
  set lines : List (Row ℝ) := [⟨"He", 5000, 1⟩, ⟨"He", 5010, 1⟩] with hlines
  have hlo : airToVacuum 273.15 101325 0 4000 ≤ 5000 := by
    unfold airToVacuum
    rw [index_dry]
    unfold kappa disp
    rw [sOf_eq]
    norm_num
  have hhi : (5010 : ℝ) ≤ airToVacuum 273.15 101325 0 6000 := by
    have := (C13_index_ge_one defaultConditions (w := 6000) (by norm_num)).2.2
    linarith
  have hv : Spec.ThresholdsFit ["He"] (MinIntensity.none : MinIntensity ℝ) := fun vs h => by cases h
  obtain ⟨sel, hmem, hsort, _, _, c2⟩ := C07_min_distance_partial (K := ℝ) stableArgsort
    (airToVacuum 273.15 101325 0) (vacuumToAir 273.15 101325 0) lines ["He"] (airToVacuum 273.15 101325 0 4000)
    (airToVacuum 273.15 101325 0 6000) .none 10 (by norm_num) hv
  have hf : lines.filter (fun q => ["He"].contains q.elem) = lines := by simp [lines]
  have m1 : (⟨"He", 5000, 1⟩ : Row ℝ) ∈ sel := by
    rw [hmem]
    refine ⟨⟨[], [⟨"He", 5010, 1⟩], by rw [hf]; rfl, by simp⟩, hlo, by show (5000 : ℝ) ≤ _; linarith, trivial⟩
  have m2 : (⟨"He", 5010, 1⟩ : Row ℝ) ∈ sel := by
    rw [hmem]
    refine ⟨⟨[⟨"He", 5000, 1⟩], [], by rw [hf]; rfl, ?_⟩, by show _ ≤ (5010 : ℝ); linarith, hhi, trivial⟩
    intro q hq
    rw [List.mem_singleton] at hq
    subst hq
    show (5000 : ℝ) ≠ 5010
    norm_num
  have honly : ∀ q ∈ sel, q = ⟨"He", 5000, 1⟩ ∨ q = ⟨"He", 5010, 1⟩ := by
    intro q hq
    obtain ⟨⟨pre, post, hpp, _⟩, _⟩ := (hmem q).1 hq
    rw [hf] at hpp
    have : q ∈ lines := by rw [hpp]; simp
    simpa [lines] using this
  have hl : 2 ≤ sel.length := by
    rcases sel with _ | ⟨a, _ | ⟨b, t⟩⟩
    · simp at m1
    · rw [List.mem_singleton] at m1 m2
      rw [← m2] at m1
      have := congrArg Row.wl m1
      norm_num at this
    · simp
  obtain ⟨out, ho, hsub, hout, _⟩ := c2 hl
  have k1 : (⟨"He", 5000, 1⟩ : Row ℝ) ∈ out := by
    rw [hout]
    refine ⟨m1, fun q hq hne => ?_⟩
    rcases honly q hq with rfl | rfl
    · exact absurd rfl hne
    · show (10 : ℝ) ≤ |5010 - 5000|
      norm_num
  have k2 : (⟨"He", 5010, 1⟩ : Row ℝ) ∈ out := by
    rw [hout]
    refine ⟨m2, fun q hq hne => ?_⟩
    rcases honly q hq with rfl | rfl
    · show (10 : ℝ) ≤ |5000 - 5010|
      rw [abs_sub_comm]
      norm_num
    · exact absurd rfl hne
  refine ⟨Spec.converted (vacuumToAir 273.15 101325 0) ⟨out.map Row.elem, out.map Row.wl, out.map Row.inten⟩, ?_,
    List.mem_map_of_mem (List.mem_map_of_mem (f := Row.wl) k1),
    List.mem_map_of_mem (List.mem_map_of_mem (f := Row.wl) k2)⟩
  rw [C218_air_is_converted, ho]
  rfl

/-- A case for `C218_distance_partial`: the two lines are at least 9.9953 Angstrom apart. -/
example : ∃ r : LineArrays ℝ, vacuumToAir 273.15 101325 0 5000 ∈ r.wls ∧ vacuumToAir 273.15 101325 0 5010 ∈ r.wls ∧
    r.wls.Pairwise (fun x y => 10 * (1 - 4.7e-4) ≤ y - x) := by
  obtain ⟨r, hr, h1, h2⟩ := two_lines_air
  exact ⟨r, h1, h2, C218_distance_partial defaultConditions _ _ _ (by norm_num) _ 10 (by norm_num) r hr⟩

/-- Two lines 10 Angstrom apart in vacuum are both returned for a minimum distance of 10 Angstrom in air of 0
Celsius, where they are closer. -/
theorem C218_refuted : ¬ C218_Statement := by
  intro hst
  obtain ⟨g1, g2⟩ := gap_5000
  obtain ⟨r, hr, h1, h2⟩ := two_lines_air
  have := hst 273.15 101325 0 defaultConditions stableArgsort stableArgsort_isArgsort _ ["He"] 4000 6000 .none
    10 r (by norm_num) (by norm_num) (by norm_num) hr _ h1 _ h2 (ne_of_lt g2)
  rw [abs_of_pos (by linarith)] at this
  linarith

end Rascal
