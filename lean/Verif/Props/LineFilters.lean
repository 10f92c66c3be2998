import Verif.Proofs.LoadMain

/-!
Property theorems C01-C08: line filters and `load_calibration_lines`.
-/

set_option linter.unusedSectionVars false

namespace Rascal

variable {K : Type _} [AddCommGroup K] [LinearOrder K]

/-! ### C01 -/

/-- C01.  The output is in strictly increasing wavelength order and a row is returned iff its
wavelength is in the inclusive range and it is the first input row with that wavelength. -/
theorem C01_filter_wavelengths (lines : List (Row K)) (lo hi : K) :
    ((filterWavelengths lines lo hi).map Row.wl).Pairwise (· < ·) ∧
    ∀ r, r ∈ filterWavelengths lines lo hi ↔
      Spec.FirstWith Row.wl lines r ∧ lo ≤ r.wl ∧ r.wl ≤ hi :=
  ⟨filterWavelengths_sorted lines lo hi, mem_filterWavelengths lines lo hi⟩

/-- Three rows in range, two of them with the same wavelength: the first of the two stays, the result is sorted. -/
example : filterWavelengths [⟨"Ar", 7, 1⟩, ⟨"Xe", 5, 2⟩, ⟨"Kr", 7, 3⟩, ⟨"Xe", 12, 4⟩] 5 (10 : ℤ) =
    [⟨"Xe", 5, 2⟩, ⟨"Ar", 7, 1⟩] := by decide

/-- C01, wavelength form: a wavelength survives iff it occurs in the input inside the range. -/
theorem C01_wavelength_mem (lines : List (Row K)) (lo hi w : K) :
    w ∈ (filterWavelengths lines lo hi).map Row.wl ↔
      w ∈ lines.map Row.wl ∧ lo ≤ w ∧ w ≤ hi := by
  simp only [List.mem_map, mem_filterWavelengths]
  constructor
  · rintro ⟨r, ⟨⟨pre, post, rfl, _⟩, h1, h2⟩, rfl⟩
    exact ⟨⟨r, by simp, rfl⟩, h1, h2⟩
  · rintro ⟨⟨r, hr, rfl⟩, h1, h2⟩
    have hw : r.wl ∈ lines.map Row.wl := List.mem_map_of_mem hr
    rw [← mem_npUnique] at hw
    unfold npUnique at hw
    rw [takeIdx_map, List.mem_map] at hw
    obtain ⟨q, hq, hqw⟩ := hw
    rw [mem_takeIdx_unique] at hq
    exact ⟨q, ⟨hq, by rw [hqw]; exact h1, by rw [hqw]; exact h2⟩, hqw⟩

/-- Unsorted input with a duplicate wavelength, one line on each bound and one outside. -/
example : filterWavelengths (K := ℤ)
    [⟨"Xe", 30, 1⟩, ⟨"Ar", 10, 2⟩, ⟨"Hg", 30, 3⟩, ⟨"Ar", 20, 4⟩, ⟨"Ar", 5, 9⟩] 10 30
    = [⟨"Ar", 10, 2⟩, ⟨"Ar", 20, 4⟩, ⟨"Xe", 30, 1⟩] := by decide

/-! ### C02, C03 -/

section Sep
variable [IsOrderedAddMonoid K]

/-- C02.  On an increasing list of at least two wavelengths `filter_separation` keeps exactly the
positions that are `d` away from every other line. -/
theorem C02_filter_separation (ws : List K) (d : K) (hs : ws.Pairwise (· ≤ ·))
    (h2 : 2 ≤ ws.length) :
    ∃ mask, filterSeparation ws d = .ok mask ∧ mask.length = ws.length ∧
      ∀ i < ws.length, mask[i]? = some true ↔ Spec.Isolated ws d i := by
  obtain ⟨mask, h, hl, hm⟩ := filterSeparation_spec ws d (by rintro rfl; simp at h2)
  refine ⟨mask, h, hl, ?_⟩
  intro i hi
  rw [hm i hi, ← sepAt_isolated ws hs h2 d i hi]
  simp

/-- An increasing list in which a close pair, and only it, is rejected. -/
example : [1, 5, 30, (60 : ℤ)].Pairwise (· ≤ ·) ∧ 2 ≤ [1, 5, 30, (60 : ℤ)].length ∧
    filterSeparation [1, 5, 30, (60 : ℤ)] 10 = .ok [false, false, true, true] := by decide

/-- C03, full statement: a lone line is always kept and an empty list gives an empty mask. -/
def C03_Statement (K : Type _) [AddCommGroup K] [LinearOrder K] : Prop :=
  ∀ d : K, filterSeparation ([] : List K) d = .ok [] ∧
    ∀ w : K, filterSeparation [w] d = .ok [true]

/-- C03 is false of the code: with a positive threshold the lone line is dropped. -/
theorem C03_refuted : ¬ C03_Statement ℤ ∧
    filterSeparation [(5000 : ℤ)] 10 = .ok [false] := by
  refine ⟨fun h => ?_, by decide⟩
  exact absurd ((h 10).2 5000) (by decide)

/-- C03, what the code does: a lone line is kept exactly for thresholds `≤ 0`; the empty list
raises IndexError.  Missing: keeping the lone line for positive thresholds, accepting `[]`. -/
theorem C03_degenerate_partial (d : K) :
    filterSeparation ([] : List K) d = .error .indexError ∧
    ∀ w : K, filterSeparation [w] d = .ok [decide (d ≤ 0)] := by
  refine ⟨rfl, fun w => ?_⟩
  simp [filterSeparation, diffs]

example : filterSeparation [(5000 : ℤ)] 0 = .ok [true] := by decide

end Sep

/-! ### C04 -/

/-- The threshold that applies to element `e`. -/
def Spec.ThresholdFor (elements : List String) (mi : MinIntensity K) (e : String) (t : K) : Prop :=
  match mi with
  | .none => e ∈ elements ∧ t = 0
  | .scalar v => e ∈ elements ∧ t = v
  | .perElement vs => Spec.LastEntry elements vs e t
  | .other => False

theorem thresholdFor_iff (elements : List String) (mi : MinIntensity K) (d : String → Option K)
    (h : intensityDict elements mi = .ok d) (e : String) (t : K) :
    d e = some t ↔ Spec.ThresholdFor elements mi e t := by
  cases mi with
  | none =>
    simp only [intensityDict, Except.ok.injEq] at h
    subst h
    rw [dictFill_const]
    by_cases he : e ∈ elements <;> simp [Spec.ThresholdFor, he, eq_comm]
  | scalar v =>
    simp only [intensityDict, Except.ok.injEq] at h
    subst h
    rw [dictFill_const]
    by_cases he : e ∈ elements <;> simp [Spec.ThresholdFor, he, eq_comm]
  | perElement vs =>
    simp only [intensityDict] at h
    split at h
    · rename_i hl
      simp only [Except.ok.injEq] at h
      subst h
      exact dictFill_zip_eq_some _ _ hl _ _
    · cases h
  | other => simp [intensityDict] at h

/-- C04, success: the mask has one entry per line, and the entry of a line says whether its
intensity reaches the threshold of its own element. -/
theorem C04_mask (elements : List String) (lines : List (Row K)) (mi : MinIntensity K)
    (mask : List Bool) (h : filterIntensity elements lines mi = .ok mask) :
    mask.length = lines.length ∧
    ∀ (i : Nat) (r : Row K), lines[i]? = some r → ∃ t, Spec.ThresholdFor elements mi r.elem t ∧
      (mask[i]? = some true ↔ t ≤ r.inten) ∧ (mask[i]? = some false ↔ r.inten < t) := by
  unfold filterIntensity at h
  cases hd : intensityDict elements mi with
  | error e => rw [hd] at h; cases h
  | ok d =>
    rw [hd] at h
    simp only at h
    by_cases hall : ∃ r ∈ lines, d r.elem = none
    · rw [intensityLoop_error d lines hall] at h; cases h
    · push Not at hall
      have hthr : ∀ r ∈ lines, d r.elem = some ((d r.elem).getD 0) := by
        intro r hr
        have := hall r hr
        cases hx : d r.elem with
        | none => exact absurd hx this
        | some v => rfl
      rw [intensityLoop_ok d (fun r => (d r.elem).getD 0) lines hthr] at h
      cases h
      refine ⟨by simp, ?_⟩
      intro i r hr
      refine ⟨(d r.elem).getD 0, ?_, ?_, ?_⟩
      · exact (thresholdFor_iff elements mi d hd _ _).1 (hthr r (List.mem_of_getElem? hr))
      · rw [List.getElem?_map, hr]; simp
      · rw [List.getElem?_map, hr]; simp

/-- The hypothesis of `C04_mask` met with two elements of different thresholds. -/
example := C04_mask (K := ℤ) ["Ar", "Xe"] [⟨"Ar", 5, 10⟩, ⟨"Xe", 6, 10⟩, ⟨"Xe", 7, 30⟩] (.perElement [5, 20])
  [true, false, true] (by decide)

/-- C04, failure: the call raises exactly when the threshold has an unsupported type or the wrong
length, or a line's element was not requested; which exception is raised. -/
theorem C04_error (elements : List String) (lines : List (Row K)) (mi : MinIntensity K)
    (e : PyErr) :
    filterIntensity elements lines mi = .error e ↔
      (mi = .other ∧ e = .valueError) ∨
      (∃ vs, mi = .perElement vs ∧ vs.length ≠ elements.length ∧ e = .assertionError) ∨
      (mi ≠ .other ∧ Spec.ThresholdsFit elements mi ∧ (∃ r ∈ lines, r.elem ∉ elements) ∧
        e = .keyError) := by
  have hgen : ∀ d : String → Option K, (∀ k, (d k).isSome ↔ k ∈ elements) →
      (intensityLoop d lines = .error e ↔ (∃ r ∈ lines, r.elem ∉ elements) ∧ e = .keyError) := by
    intro d hd
    by_cases hall : ∃ r ∈ lines, d r.elem = none
    · rw [intensityLoop_error d lines hall]
      obtain ⟨r, hr, hn⟩ := hall
      have : r.elem ∉ elements := by rw [← hd, hn]; simp
      constructor
      · intro h; cases h; exact ⟨⟨r, hr, this⟩, rfl⟩
      · rintro ⟨_, rfl⟩; rfl
    · push Not at hall
      have hthr : ∀ r ∈ lines, d r.elem = some ((d r.elem).getD 0) := by
        intro r hr
        have := hall r hr
        cases hx : d r.elem with
        | none => exact absurd hx this
        | some v => rfl
      rw [intensityLoop_ok d (fun r => (d r.elem).getD 0) lines hthr]
      constructor
      · intro h; cases h
      · rintro ⟨⟨r, hr, hn⟩, _⟩
        rw [← hd, hthr r hr] at hn
        simp at hn
  unfold filterIntensity
  cases mi with
  | none =>
    simp only [intensityDict]
    rw [hgen _ (fun k => by rw [dictFill_const]; by_cases hk : k ∈ elements <;> simp [hk])]
    simp [Spec.ThresholdsFit]
  | scalar v =>
    simp only [intensityDict]
    rw [hgen _ (fun k => by rw [dictFill_const]; by_cases hk : k ∈ elements <;> simp [hk])]
    simp [Spec.ThresholdsFit]
  | perElement vs =>
    simp only [intensityDict]
    by_cases hl : vs.length = elements.length
    · simp only [if_pos hl]
      rw [hgen _ (fun k => by rw [dictFill_isSome, List.map_fst_zip (by omega)])]
      simp [Spec.ThresholdsFit, hl]
    · simp only [if_neg hl]
      simp [Spec.ThresholdsFit, hl, eq_comm]
  | other =>
    simp [intensityDict, eq_comm]

/-- Two elements with different thresholds; the repeated element takes the last one. -/
example : filterIntensity (K := ℤ) ["He", "Ar", "He"]
    [⟨"He", 1, 15⟩, ⟨"Ar", 2, 15⟩, ⟨"He", 3, 25⟩] (.perElement [10, 15, 20])
    = .ok [false, true, true] := by decide

example : filterIntensity (K := ℤ) ["He"] [⟨"Ar", 2, 15⟩] (.scalar 3) = .error .keyError := by
  decide

/-! ### C05 -/

/-- C05.  Vacuum mode, no brightness limit, no separation filter: the result is the arrays of a
list of rows in increasing wavelength order containing exactly the requested lines; it raises
exactly when a threshold list has the wrong length. -/
theorem C05_load_exact (argsort : List K → List Nat) (airToVac vacToAir : K → K)
    (lines : List (Row K)) (elements : List String) (lo hi : K) (mi : MinIntensity K)
    (minDistance : K) (hd : ¬ 0 < minDistance) :
    let res := loadCalibrationLines argsort airToVac vacToAir lines elements lo hi mi
      minDistance true none
    (Spec.ThresholdsFit elements mi → ∃ out : List (Row K),
      res = .ok ⟨out.map Row.elem, out.map Row.wl, out.map Row.inten⟩ ∧
      (out.map Row.wl).Pairwise (· < ·) ∧
      ∀ r, r ∈ out ↔ Spec.Requested lines elements lo hi mi r) ∧
    (¬ Spec.ThresholdsFit elements mi → res = .error .assertionError) := by
  intro res
  constructor
  · intro hv
    obtain ⟨sel, hs, hm, heq⟩ := load_eq argsort airToVac vacToAir lines elements lo hi mi
      minDistance true none hv
    refine ⟨sel, ?_, hs, by simpa using hm⟩
    show loadCalibrationLines _ _ _ _ _ _ _ _ _ _ _ = _
    rw [heq]
    simp only [loadDistanceMask, if_neg hd, if_true, List.map_map, brightRows]
    rw [show ((fun _ => true) ∘ Row.wl : Row K → Bool) = (fun _ => true) from rfl,
      boolMask_map_pred]
    simp
  · intro hv
    exact load_badThresholds _ _ _ _ _ _ _ _ _ _ _ hv

/-- Mixed elements, a weak line, an out-of-range line and a duplicate. -/
example : loadCalibrationLines (K := ℤ) stableArgsort id id
    [⟨"Xe", 500, 90⟩, ⟨"Ar", 400, 50⟩, ⟨"Hg", 450, 99⟩, ⟨"Ar", 420, 5⟩, ⟨"Ar", 500, 70⟩,
      ⟨"Xe", 900, 70⟩] ["Ar", "Xe"] 300 600 (.scalar 10) 0 true none
    = .ok ⟨["Ar", "Xe"], [400, 500], [50, 90]⟩ := by decide

/-! ### C06 -/

/-- Number of lines a brightness limit `n` keeps out of `m` (negative `n` drops from the end,
as Python slices do). -/
def Spec.keepCount (m : Nat) (n : Int) : Nat :=
  if 0 ≤ n then min n.toNat m else m - (-n).toNat

theorem pyBound_eq_keepCount (m : Nat) (n : Int) : pyBound m n = Spec.keepCount m n := by
  unfold pyBound Spec.keepCount
  split <;> split <;> omega

/-- C06.  Compared with the unlimited selection `all`, a limit `n` returns the right number of
lines, brightest first, each of them a line of `all`, and every line left out is at most as bright
as every line kept - for every admissible behaviour of `argsort`. -/
theorem C06_brightest (argsort : List K → List Nat) (ha : IsArgsort argsort)
    (airToVac vacToAir : K → K)
    (lines : List (Row K)) (elements : List String) (lo hi : K) (mi : MinIntensity K)
    (minDistance : K) (hd : ¬ 0 < minDistance) (hv : Spec.ThresholdsFit elements mi) (n : Int) :
    ∃ all out rest : List (Row K),
      loadCalibrationLines argsort airToVac vacToAir lines elements lo hi mi
        minDistance true none = .ok ⟨all.map Row.elem, all.map Row.wl, all.map Row.inten⟩ ∧
      loadCalibrationLines argsort airToVac vacToAir lines elements lo hi mi
        minDistance true (some n) = .ok ⟨out.map Row.elem, out.map Row.wl, out.map Row.inten⟩ ∧
      (∀ r, r ∈ all ↔ Spec.Requested lines elements lo hi mi r) ∧ all.Nodup ∧
      out.length = Spec.keepCount all.length n ∧
      (out ++ rest).Perm all ∧
      (out.map Row.inten).Pairwise (fun a b => b ≤ a) ∧
      ∀ r ∈ out, ∀ q ∈ rest, q.inten ≤ r.inten := by
  obtain ⟨sel, hs, hm, heq⟩ := load_eq argsort airToVac vacToAir lines elements lo hi mi
      minDistance true none hv
  obtain ⟨sel', hs', hm', heq'⟩ := load_eq argsort airToVac vacToAir lines elements lo hi mi
      minDistance true (some n) hv
  -- the selection does not depend on the limit
  have hnd : ∀ s : List (Row K), (s.map Row.wl).Pairwise (· < ·) → s.Nodup := by
    intro s h
    rw [List.pairwise_map] at h
    exact h.imp (fun {a b} hab hc => by subst hc; exact lt_irrefl _ hab)
  have hsel : sel' = sel := by
    have hp : sel'.Perm sel := (List.perm_ext_iff_of_nodup (hnd _ hs') (hnd _ hs)).2
      (fun r => by rw [hm, hm'])
    rw [List.pairwise_map] at hs hs'
    exact hp.eq_of_pairwise (fun a b _ _ h1 h2 => absurd h1 (lt_asymm h2)) hs' hs
  subst hsel
  set idx := argsort (sel'.map Row.inten) with hidx
  have hlt : ∀ i ∈ idx, i < sel'.length := by
    have := ha.lt (sel'.map Row.inten)
    simpa using this
  have hlt' : ∀ i ∈ idx.reverse, i < sel'.length := fun i hi => hlt i (List.mem_reverse.1 hi)
  have hlen : idx.reverse.length = sel'.length := by
    rw [List.length_reverse, hidx, ha.length, List.length_map]
  have hperm : (takeIdx sel' idx.reverse).Perm sel' := by
    apply takeIdx_perm_range
    refine (List.reverse_perm _).trans ?_
    have := ha.perm (sel'.map Row.inten)
    rwa [List.length_map] at this
  have hsort : ((takeIdx sel' idx.reverse).map Row.inten).Pairwise (fun a b => b ≤ a) := by
    rw [← takeIdx_map, takeIdx_reverse, List.pairwise_reverse]
    exact ha.sorted _
  refine ⟨sel', (takeIdx sel' idx.reverse).take (Spec.keepCount sel'.length n),
    (takeIdx sel' idx.reverse).drop (Spec.keepCount sel'.length n), ?_, ?_, by simpa using hm,
    hnd _ hs, ?_, ?_, ?_, ?_⟩
  · rw [heq]
    simp only [loadDistanceMask, if_neg hd, if_true, List.map_map, brightRows]
    rw [show ((fun _ => true) ∘ Row.wl : Row K → Bool) = (fun _ => true) from rfl,
      boolMask_map_pred]
    simp
  · rw [heq']
    simp only [loadDistanceMask, if_neg hd, if_true, List.map_map, brightRows]
    rw [show ((fun _ => true) ∘ Row.wl : Row K → Bool) = (fun _ => true) from rfl,
      boolMask_map_pred]
    unfold pyTake
    rw [takeIdx_take_of_lt hlt', hlen, pyBound_eq_keepCount]
    simp
  · rw [List.length_take, takeIdx_length_of_lt hlt', hlen]
    unfold Spec.keepCount
    split <;> omega
  · rw [List.take_append_drop]; exact hperm
  · exact hsort.sublist ((List.take_sublist _ _).map _)
  · intro r hr q hq
    rw [← List.take_append_drop (Spec.keepCount sel'.length n) (takeIdx sel' idx.reverse),
      List.map_append, List.pairwise_append] at hsort
    exact hsort.2.2 _ (List.mem_map_of_mem hr) _ (List.mem_map_of_mem hq)

/-- Limit 2 out of three, with a tie. -/
example : loadCalibrationLines (K := ℤ) stableArgsort id id
    [⟨"Ar", 400, 50⟩, ⟨"Ar", 450, 99⟩, ⟨"Ar", 500, 50⟩] ["Ar"] 300 600 (.scalar 10) 0 true (some 2)
    = .ok ⟨["Ar", "Ar"], [450, 500], [99, 50]⟩ := by decide

/-! ### C07 -/

/-- C07, full statement: the returned (vacuum) wavelengths are pairwise at least `d` apart, for
every setting. -/
def C07_Statement (K : Type _) [AddCommGroup K] [LinearOrder K] : Prop :=
  ∀ (argsort : List K → List Nat), IsArgsort argsort →
  ∀ (lines : List (Row K)) (elements : List String) (lo hi : K) (mi : MinIntensity K) (d : K)
    (b : Option Int) (a : LineArrays K), 0 < d →
    loadCalibrationLines argsort id id lines elements lo hi mi d true b = .ok a →
    a.wls.Pairwise (fun x y => d ≤ |y - x|)

/-- C07 is false of the code when a brightness limit is given: the lines are put in brightness
order before neighbouring entries are compared. -/
theorem C07_refuted : ¬ C07_Statement ℤ := by
  intro h
  have := h stableArgsort stableArgsort_isArgsort
    [⟨"Ar", 400, 90⟩, ⟨"Ar", 405, 70⟩, ⟨"Ar", 500, 80⟩] ["Ar"] 300 600 (.scalar 10) 10
    (some 1000) ⟨["Ar", "Ar", "Ar"], [400, 500, 405], [90, 80, 70]⟩ (by decide) (by decide)
  revert this
  decide

/-- C07 without a brightness limit: with at least two selected lines, exactly those at least `d`
away from every other selected line are returned (so the returned ones are pairwise `d` apart).
With one selected line nothing is returned, with none IndexError is raised.
Missing from the full statement: calls with `brightest_n_lines`. -/
theorem C07_min_distance_partial [IsOrderedAddMonoid K] (argsort : List K → List Nat)
    (airToVac vacToAir : K → K)
    (lines : List (Row K)) (elements : List String) (lo hi : K) (mi : MinIntensity K)
    (d : K) (hd : 0 < d) (hv : Spec.ThresholdsFit elements mi) :
    ∃ sel : List (Row K), (∀ r, r ∈ sel ↔ Spec.Requested lines elements lo hi mi r) ∧
      (sel.map Row.wl).Pairwise (· < ·) ∧
      (sel.length = 0 → loadCalibrationLines argsort airToVac vacToAir lines elements lo hi mi
        d true none = .error .indexError) ∧
      (sel.length = 1 → loadCalibrationLines argsort airToVac vacToAir lines elements lo hi mi
        d true none = .ok ⟨[], [], []⟩) ∧
      (2 ≤ sel.length → ∃ out : List (Row K),
        loadCalibrationLines argsort airToVac vacToAir lines elements lo hi mi
        d true none = .ok ⟨out.map Row.elem, out.map Row.wl, out.map Row.inten⟩ ∧
        out.Sublist sel ∧
        (∀ r, r ∈ out ↔ r ∈ sel ∧ ∀ q ∈ sel, q ≠ r → d ≤ |q.wl - r.wl|) ∧
        (out.map Row.wl).Pairwise (fun x y => d ≤ |y - x|)) := by
  obtain ⟨sel, hs, hm, heq⟩ := load_eq argsort airToVac vacToAir lines elements lo hi mi
      d true none hv
  refine ⟨sel, by simpa using hm, hs, ?_, ?_, ?_⟩
  · intro h
    rw [heq, List.length_eq_zero_iff.1 h]
    simp [loadDistanceMask, hd, filterSeparation, brightRows]
  · intro h
    obtain ⟨r, rfl⟩ := List.length_eq_one_iff.1 h
    rw [heq]
    simp [loadDistanceMask, filterSeparation, diffs, boolMask, hd, brightRows]
  · intro h
    have hle : (sel.map Row.wl).Pairwise (· ≤ ·) := hs.imp le_of_lt
    obtain ⟨mask, h1, h2, h3⟩ := C02_filter_separation (sel.map Row.wl) d hle (by simpa using h)
    have hiff : ∀ r, r ∈ boolMask sel mask ↔ r ∈ sel ∧ ∀ q ∈ sel, q ≠ r → d ≤ |q.wl - r.wl| := by
      intro r
      rw [mem_boolMask]
      have hinj : ∀ i j (hi : i < sel.length) (hj : j < sel.length), sel[i] = sel[j] → i = j := by
        intro i j hi hj hij
        rw [List.pairwise_map] at hs
        rcases Nat.lt_trichotomy i j with hlt | rfl | hgt
        · have := List.pairwise_iff_getElem.1 hs i j hi hj hlt
          rw [hij] at this; exact absurd this (lt_irrefl _)
        · rfl
        · have := List.pairwise_iff_getElem.1 hs j i hj hi hgt
          rw [hij] at this; exact absurd this (lt_irrefl _)
      constructor
      · rintro ⟨i, hi, hmi⟩
        obtain ⟨hil, hget⟩ := List.getElem?_eq_some_iff.1 hi
        refine ⟨List.mem_of_getElem? hi, ?_⟩
        intro q hq hqr
        obtain ⟨j, hjl, rfl⟩ := List.getElem_of_mem hq
        have := (h3 i (by simpa using hil)).1 hmi (by simpa using hil) j (by simpa using hjl)
          (by rintro rfl; exact hqr hget)
        simpa [hget] using this
      · rintro ⟨hr, hall⟩
        obtain ⟨i, hil, rfl⟩ := List.getElem_of_mem hr
        refine ⟨i, by simp [hil], (h3 i (by simpa using hil)).2 ?_⟩
        intro hi' j hj' hji
        have := hall (sel[j]'(by simpa using hj')) (List.getElem_mem _)
          (fun hc => hji (hinj _ _ _ _ hc))
        simpa using this
    have hsub : (boolMask sel mask).Sublist sel := boolMask_sublist _ _
    refine ⟨boolMask sel mask, ?_, hsub, hiff, ?_⟩
    · rw [heq]
      simp only [loadDistanceMask, if_pos hd, h1, brightRows]
      rfl
    · rw [List.pairwise_map] at hs ⊢
      have hp := hs.sublist hsub
      have : (boolMask sel mask).Pairwise (fun a b => a ∈ boolMask sel mask ∧
          b ∈ boolMask sel mask ∧ a.wl < b.wl) := List.Pairwise.and_mem.1 hp
      refine this.imp ?_
      rintro a b ⟨ha, hb, hab⟩
      exact ((hiff a).1 ha).2 b ((hiff b).1 hb).1 (by rintro rfl; exact lt_irrefl _ hab)

/-- A close pair and two isolated lines. -/
example : loadCalibrationLines (K := ℤ) stableArgsort id id
    [⟨"Ar", 400, 90⟩, ⟨"Ar", 405, 70⟩, ⟨"Ar", 500, 80⟩, ⟨"Ar", 550, 80⟩] ["Ar"] 300 600
    (.scalar 10) 10 true none
    = .ok ⟨["Ar", "Ar"], [500, 550], [80, 80]⟩ := by decide

/-! ### C08 -/

/-- C08.  Whatever the arguments, the three returned lists describe, position by position, lines
of the line list of requested elements inside the (converted) limits and bright enough, the
wavelength being converted to air unless `vacuum`. -/
theorem C08_aligned (argsort : List K → List Nat) (airToVac vacToAir : K → K)
    (lines : List (Row K)) (elements : List String) (lo hi : K) (mi : MinIntensity K)
    (d : K) (vacuum : Bool) (b : Option Int) (a : LineArrays K)
    (h : loadCalibrationLines argsort airToVac vacToAir lines elements lo hi mi d vacuum b =
      .ok a) :
    ∃ out : List (Row K), a.elems = out.map Row.elem ∧ a.intens = out.map Row.inten ∧
      a.wls = out.map (fun r => if vacuum then r.wl else vacToAir r.wl) ∧
      ∀ r ∈ out, r ∈ lines ∧ r.elem ∈ elements ∧ Spec.BrightEnough elements mi r ∧
        (if vacuum then lo else airToVac lo) ≤ r.wl ∧
        r.wl ≤ (if vacuum then hi else airToVac hi) := by
  by_cases hv : Spec.ThresholdsFit elements mi
  · obtain ⟨sel, hs, hm, heq⟩ := load_eq argsort airToVac vacToAir lines elements lo hi mi
      d vacuum b hv
    have hreq : ∀ r ∈ sel, r ∈ lines ∧ r.elem ∈ elements ∧ Spec.BrightEnough elements mi r ∧
        (if vacuum then lo else airToVac lo) ≤ r.wl ∧
        r.wl ≤ (if vacuum then hi else airToVac hi) := by
      intro r hr
      obtain ⟨⟨pre, post, he, _⟩, h1, h2, h3⟩ := (hm r).1 hr
      have hmem : r ∈ lines.filter (fun q => elements.contains q.elem) := by rw [he]; simp
      rw [List.mem_filter] at hmem
      exact ⟨hmem.1, by simpa using hmem.2, h3, h1, h2⟩
    rw [heq] at h
    simp only at h
    set rows : List (Row K) := brightRows argsort b sel with hrows
    have hrowsmem : ∀ r ∈ rows, r ∈ sel := by
      intro r hr
      cases b with
      | none => exact hr
      | some n =>
        obtain ⟨i, _, hi⟩ := (mem_takeIdx _ _ _).1 hr
        exact List.mem_of_getElem? hi
    cases hdm : loadDistanceMask (rows.map Row.wl) d with
    | error e => rw [hdm] at h; cases h
    | ok dmask =>
      rw [hdm] at h
      cases h
      refine ⟨boolMask rows dmask, rfl, rfl, ?_, ?_⟩
      · cases vacuum <;> simp
      · intro r hr
        exact hreq r (hrowsmem r ((boolMask_sublist _ _).subset hr))
  · rw [load_badThresholds _ _ _ _ _ _ _ _ _ _ _ hv] at h
    cases h

/-- Air mode (with a toy conversion), brightness limit and separation filter together. -/
example : loadCalibrationLines (K := ℤ) stableArgsort (· + 1) (· - 1)
    [⟨"Xe", 500, 90⟩, ⟨"Ar", 400, 50⟩, ⟨"Ar", 450, 99⟩, ⟨"Ar", 420, 5⟩] ["Ar", "Xe"] 300 600
    (.scalar 10) 10 false (some 2)
    = .ok ⟨["Ar", "Xe"], [449, 499], [99, 90]⟩ := by decide

/-! ### C86 -/

/-- C86.  The outcome of `load_calibration_lines` is the selection from exactly the named list, or
ValueError if there is none. -/
theorem C86_linelist (argsort : List K → List Nat) (airToVac vacToAir : K → K)
    (nistRows : List (Row K)) (fs : String → Option (List (Row K))) (linelist : LineListArg)
    (elements : List String) (lo hi : K) (mi : MinIntensity K) (minDistance : K) (vacuum : Bool)
    (brightest : Option Int) :
    let load := loadFromFile argsort airToVac vacToAir nistRows fs linelist elements lo hi mi
      minDistance vacuum brightest
    let select := fun rows => loadCalibrationLines argsort airToVac vacToAir rows elements lo hi mi
      minDistance vacuum brightest
    (linelist = .nist → load = select nistRows) ∧
    (∀ p rows, linelist = .path p → fs p = some rows → load = select rows) ∧
    (∀ p, linelist = .path p → fs p = none → load = .error .valueError) ∧
    (linelist = .notAString → load = .error .valueError) := by
  refine ⟨?_, ?_, ?_, ?_⟩
  · rintro rfl; rfl
  · rintro p rows rfl h
    simp [loadFromFile, readLineList, h]
  · rintro p rfl h
    simp [loadFromFile, readLineList, h]
  · rintro rfl; rfl

example : loadFromFile (K := ℤ) stableArgsort id id [⟨"Ar", 5, 5⟩]
    (fun p => if p = "mine.csv" then some [⟨"Ar", 6, 7⟩, ⟨"Kr", 8, 7⟩] else none) (.path "mine.csv")
    ["Ar"] 0 10 .none 0 true none = .ok ⟨["Ar"], [6], [7]⟩ := by decide

/-! ### C87 -/

/-- Nothing is requested: no row of the list is selected. -/
def NothingRequested (lines : List (Row K)) (elements : List String) (lo hi : K)
    (mi : MinIntensity K) : Prop := ∀ r, ¬ Spec.Requested lines elements lo hi mi r

/-- The expected behaviour. -/
def C87_Statement (K : Type _) [AddCommGroup K] [LinearOrder K] : Prop :=
  ∀ (argsort : List K → List Nat), IsArgsort argsort → ∀ (lines : List (Row K))
    (elements : List String) (lo hi : K) (mi : MinIntensity K) (minDistance : K),
    Spec.ThresholdsFit elements mi → NothingRequested lines elements lo hi mi →
    loadCalibrationLines argsort id id lines elements lo hi mi minDistance true none =
      .ok ⟨[], [], []⟩

/-- C87 is false: with a positive minimum distance an unknown element raises IndexError. -/
theorem C87_refuted : ¬ C87_Statement ℤ := by
  intro h
  have := h stableArgsort stableArgsort_isArgsort [⟨"Ar", 5, 5⟩] ["Xe"] 0 10 .none 10
    (by simp [Spec.ThresholdsFit]) (by
      rintro r ⟨h1, h2, _⟩
      have := h1
      simp_all [Spec.FirstWith])
  revert this
  decide

/-- C87: with a minimum distance that is not positive nothing is returned; with a positive one the
outcome is IndexError, in vacuum and in air mode and with any brightness limit.  What is missing for
the full statement: positive distances. -/
theorem C87_empty_partial (argsort : List K → List Nat)
    (airToVac vacToAir : K → K)
    (lines : List (Row K)) (elements : List String) (lo hi : K) (mi : MinIntensity K)
    (minDistance : K) (vacuum : Bool) (brightest : Option Int)
    (hv : Spec.ThresholdsFit elements mi)
    (hn : NothingRequested lines elements (if vacuum then lo else airToVac lo)
      (if vacuum then hi else airToVac hi) mi) :
    loadCalibrationLines argsort airToVac vacToAir lines elements lo hi mi minDistance vacuum
      brightest = if 0 < minDistance then .error .indexError else .ok ⟨[], [], []⟩ := by
  obtain ⟨sel, hs, hm, heq⟩ := load_eq argsort airToVac vacToAir lines elements lo hi mi
      minDistance vacuum brightest hv
  have hsel : sel = [] := by
    rw [List.eq_nil_iff_forall_not_mem]
    intro r hr
    exact hn r ((hm r).1 hr)
  subst hsel
  have hb : brightRows argsort brightest ([] : List (Row K)) = [] := by
    unfold brightRows
    cases brightest with
    | none => rfl
    | some n => simp [takeIdx]
  rw [heq]
  simp only [hb, List.map_nil]
  unfold loadDistanceMask
  by_cases hpos : 0 < minDistance
  · simp only [hpos, if_true]
    rfl
  · simp only [hpos, if_false]
    cases vacuum <;> rfl

example : NothingRequested (K := ℤ) [⟨"Ar", 5, 5⟩, ⟨"Xe", 50, 5⟩] ["Xe"] 0 10 .none := by
  rintro r ⟨⟨pre, post, h, _⟩, h1, h2, _⟩
  have hr : r ∈ [(⟨"Xe", 50, 5⟩ : Row ℤ)] := by
    have : ([⟨"Ar", 5, 5⟩, ⟨"Xe", 50, 5⟩] : List (Row ℤ)).filter
      (fun q => ["Xe"].contains q.elem) = [⟨"Xe", 50, 5⟩] := by decide
    rw [this] at h
    rw [h]; simp
  rw [List.mem_singleton.1 hr] at h2
  exact absurd h2 (by decide)

end Rascal
