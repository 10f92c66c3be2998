import Verif.Spec.Load
import Verif.Proofs.LoadLemmas

/-! Decomposition of `loadCalibrationLines` used by the property theorems. -/

set_option linter.unusedSectionVars false

namespace Rascal

variable {K : Type _} [AddCommGroup K] [LinearOrder K]

theorem mem_filterWavelengths (lines : List (Row K)) (lo hi : K) (r : Row K) :
    r ∈ filterWavelengths lines lo hi ↔
      Spec.FirstWith Row.wl lines r ∧ lo ≤ r.wl ∧ r.wl ≤ hi := by
  rw [filterWavelengths_eq]
  simp only [List.mem_filter, Bool.and_eq_true, decide_eq_true_eq]
  rw [mem_takeIdx_unique]
  rfl

theorem filterWavelengths_sorted (lines : List (Row K)) (lo hi : K) :
    ((filterWavelengths lines lo hi).map Row.wl).Pairwise (· < ·) := by
  rw [filterWavelengths_eq]
  exact (takeIdx_unique_sorted Row.wl lines).sublist (List.filter_sublist.map _)

/-- Lines left after element, wavelength and intensity selection (lines 371-397). -/
theorem load_intensity (lines : List (Row K)) (elements : List String) (lo hi : K)
    (mi : MinIntensity K) (hv : Spec.ThresholdsFit elements mi) :
    ∃ (imask : List Bool) (sel : List (Row K)),
      loadIntensityMask elements (filterWavelengths
        (boolMask lines (lines.map (fun li => elements.contains li.elem))) lo hi) mi = .ok imask ∧
      boolMask (filterWavelengths
        (boolMask lines (lines.map (fun li => elements.contains li.elem))) lo hi) imask = sel ∧
      (sel.map Row.wl).Pairwise (· < ·) ∧
      ∀ r, r ∈ sel ↔ Spec.Requested lines elements lo hi mi r := by
  rw [boolMask_map_pred]
  set base := filterWavelengths (lines.filter (fun li => elements.contains li.elem)) lo hi
    with hbase
  have hmem : ∀ r ∈ base, r.elem ∈ elements := by
    intro r hr
    rw [hbase, mem_filterWavelengths] at hr
    obtain ⟨⟨pre, post, heq, _⟩, _⟩ := hr
    have : r ∈ lines.filter (fun li => elements.contains li.elem) := by rw [heq]; simp
    simpa using (List.mem_filter.1 this).2
  have hsorted : (base.map Row.wl).Pairwise (· < ·) := filterWavelengths_sorted _ _ _
  have key : ∀ (p : Row K → Bool), (∀ r ∈ base, p r = true ↔ Spec.BrightEnough elements mi r) →
      ((boolMask base (base.map p)).map Row.wl).Pairwise (· < ·) ∧
      ∀ r, r ∈ boolMask base (base.map p) ↔ Spec.Requested lines elements lo hi mi r := by
    intro p hp
    rw [boolMask_map_pred]
    refine ⟨hsorted.sublist (List.filter_sublist.map _), ?_⟩
    intro r
    rw [List.mem_filter]
    unfold Spec.Requested
    constructor
    · rintro ⟨h1, h2⟩
      have h3 := (hp r h1).1 h2
      have h4 := (mem_filterWavelengths _ _ _ _).1 h1
      exact ⟨h4.1, h4.2.1, h4.2.2, h3⟩
    · rintro ⟨h1, h2, h3, h4⟩
      have h5 : r ∈ base := (mem_filterWavelengths _ _ _ _).2 ⟨h1, h2, h3⟩
      exact ⟨h5, (hp r h5).2 h4⟩
  cases mi with
  | none =>
    refine ⟨_, _, rfl, rfl, ?_⟩
    exact key (fun _ => true) (fun r _ => by simp [Spec.BrightEnough])
  | other =>
    refine ⟨_, _, rfl, rfl, ?_⟩
    exact key (fun _ => true) (fun r _ => by simp [Spec.BrightEnough])
  | scalar v =>
    refine ⟨base.map (fun r => decide (v ≤ r.inten)), _, ?_, rfl, ?_⟩
    · simp only [loadIntensityMask, filterIntensity, intensityDict]
      apply intensityLoop_ok
      intro r hr
      rw [dictFill_const, if_pos (hmem r hr)]
    · exact key _ (fun r _ => by simp [Spec.BrightEnough])
  | perElement vs =>
    have hlen := hv vs rfl
    have hd : ∀ r ∈ base, ∃ t, dictFill (elements.zip vs) r.elem = some t := by
      intro r hr
      rw [← Option.isSome_iff_exists, dictFill_isSome, List.map_fst_zip (by omega)]
      exact hmem r hr
    classical
    let thr : Row K → K := fun r => (dictFill (elements.zip vs) r.elem).getD 0
    have hthr : ∀ r ∈ base, dictFill (elements.zip vs) r.elem = some (thr r) := by
      intro r hr
      obtain ⟨t, ht⟩ := hd r hr
      simp [thr, ht]
    refine ⟨base.map (fun r => decide (thr r ≤ r.inten)), _, ?_, rfl, ?_⟩
    · simp only [loadIntensityMask, filterIntensity, intensityDict, if_pos hlen]
      exact intensityLoop_ok _ thr _ hthr
    · refine key _ (fun r hr => ?_)
      simp only [decide_eq_true_eq, Spec.BrightEnough]
      have h1 := (dictFill_zip_eq_some elements vs hlen r.elem (thr r)).1 (hthr r hr)
      constructor
      · intro h; exact ⟨_, h1, h⟩
      · rintro ⟨t, ht, hle⟩
        have := (dictFill_zip_eq_some elements vs hlen r.elem t).2 ht
        rw [hthr r hr] at this
        cases this
        exact hle

/-- `loadCalibrationLines` as a pipeline on one list of rows. -/
theorem load_eq (argsort : List K → List Nat) (airToVac vacToAir : K → K)
    (lines : List (Row K)) (elements : List String) (lo hi : K)
    (mi : MinIntensity K) (minDistance : K) (vacuum : Bool) (b : Option Int)
    (hv : Spec.ThresholdsFit elements mi) :
    ∃ sel : List (Row K), (sel.map Row.wl).Pairwise (· < ·) ∧
      (∀ r, r ∈ sel ↔ Spec.Requested lines elements (if vacuum then lo else airToVac lo)
        (if vacuum then hi else airToVac hi) mi r) ∧
      loadCalibrationLines argsort airToVac vacToAir lines elements lo hi mi minDistance vacuum b =
        (let rows := brightRows argsort b sel
         match loadDistanceMask (rows.map Row.wl) minDistance with
         | .error e => .error e
         | .ok dmask =>
           let out := boolMask rows dmask
           .ok ⟨out.map Row.elem,
            (if vacuum then out.map Row.wl else (out.map Row.wl).map vacToAir),
            out.map Row.inten⟩) := by
  obtain ⟨imask, sel, h1, h2, h3, h4⟩ := load_intensity lines elements
    (if vacuum then lo else airToVac lo) (if vacuum then hi else airToVac hi) mi hv
  refine ⟨sel, h3, h4, ?_⟩
  unfold loadCalibrationLines loadSelected
  simp only [h1, boolMask_map, h2]
  have hk := keepBrightest_arraysOf argsort b sel
  unfold arraysOf at hk
  rw [hk]
  cases hd : loadDistanceMask (List.map Row.wl (brightRows argsort b sel)) minDistance with
  | error e => rfl
  | ok dmask => simp only [boolMask_map]

/-- A threshold list of the wrong length raises. -/
theorem load_badThresholds (argsort : List K → List Nat) (airToVac vacToAir : K → K)
    (lines : List (Row K)) (elements : List String) (lo hi : K)
    (mi : MinIntensity K) (minDistance : K) (vacuum : Bool) (b : Option Int)
    (hv : ¬ Spec.ThresholdsFit elements mi) :
    loadCalibrationLines argsort airToVac vacToAir lines elements lo hi mi minDistance vacuum b =
      .error .assertionError := by
  unfold Spec.ThresholdsFit at hv
  push Not at hv
  obtain ⟨vs, rfl, hlen⟩ := hv
  simp [loadCalibrationLines, loadSelected, loadIntensityMask, filterIntensity, intensityDict, hlen]

end Rascal
