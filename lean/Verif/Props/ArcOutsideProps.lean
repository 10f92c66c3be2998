import Verif.Props.ArcProps

/-!
Property theorem C109, lines that fall outside the grid of `plot_calibration_lines` (the conversion to air may
move them there).
-/

set_option linter.unusedSectionVars false

namespace Rascal

variable {K : Type _} [Field K] [LinearOrder K] [IsStrictOrderedRing K] [FloorRing K]

theorem impulseLoop_only_value (grid : List Int) (a : LineArrays K) (es : List String) (i : List K) (err : PyErr)
    (h : impulseLoop grid a es i = .error err) : err = .valueError := by
  induction es generalizing i with
  | nil => cases h
  | cons e es ih =>
    unfold impulseLoop at h
    dsimp only at h
    split at h
    · rename_i err' hm
      cases h
      unfold maskedAdd at hm
      split at hm
      · cases hm
      · split at hm
        · cases hm
        · cases hm; rfl
    · exact ih _ h

theorem impulseLoop_stuck (grid : List Int) (hg : grid.Nodup) (rows : List (Row K)) (e : String)
    (h2 : 2 ≤ (rows.filter (fun r => decide (r.elem = e))).length)
    (r : Row K) (hr : r ∈ rows) (hre : r.elem = e) (hout : milli r.wl ∉ grid)
    (es : List String) (he : e ∈ es) (i : List K) :
    impulseLoop grid (arraysOf rows) es i = .error .valueError := by
  induction es generalizing i with
  | nil => simp at he
  | cons e' es ih =>
    unfold impulseLoop
    dsimp only
    by_cases hee : e' = e
    · subst hee
      have hmask1 : (boolMask (arraysOf rows).wls ((arraysOf rows).elems.map (fun x => decide (x = e')))).map
          milli = (rows.filter (fun r => decide (r.elem = e'))).map (fun r => milli r.wl) := by
        unfold arraysOf
        dsimp only
        rw [boolMask_map, boolMask_map_key, List.map_map]
        rfl
      have hmask2 : boolMask (arraysOf rows).intens ((arraysOf rows).elems.map (fun x => decide (x = e'))) =
          (rows.filter (fun r => decide (r.elem = e'))).map Row.inten := by
        unfold arraysOf
        dsimp only
        rw [boolMask_map, boolMask_map_key]
      rw [hmask1, hmask2]
      have hrm : r ∈ rows.filter (fun r => decide (r.elem = e')) := by
        rw [List.mem_filter]; exact ⟨hr, by simpa using hre⟩
      generalize rows.filter (fun r => decide (r.elem = e')) = re at h2 hrm
      have hne : (re.map Row.inten).length ≠
          (grid.map (fun w => decide (w ∈ re.map (fun r => milli r.wl)))).count true := by
        intro h
        apply hout
        refine ((count_mask grid hg (re.map (fun r => milli r.wl))).1 ?_).2 _
          (List.mem_map_of_mem (f := fun r : Row K => milli r.wl) hrm)
        rw [← h, List.length_map, List.length_map]
      have hma : maskedAdd i (grid.map (fun w => decide (w ∈ re.map (fun r => milli r.wl))))
          (re.map Row.inten) = .error .valueError := by
        unfold maskedAdd
        rw [if_neg hne]
        match re, h2 with
        | _ :: _ :: _, _ => rfl
      rw [hma]
    · have he' : e ∈ es := by
        rcases List.mem_cons.1 he with h | h
        · exact absurd h.symm hee
        · exact h
      generalize hm : maskedAdd (K := K) _ _ _ = z
      cases z with
      | error err =>
        unfold maskedAdd at hm
        split at hm
        · cases hm
        · split at hm
          · cases hm
          · cases hm; rfl
      | ok i' => exact ih he' i'

theorem addMasked_none (i : List K) (m : List Bool) (hm : ∀ b ∈ m, b = false) (v : List K) :
    addMasked i m v = i := by
  induction i generalizing m v with
  | nil => cases m <;> simp [addMasked]
  | cons x i ih =>
    cases m with
    | nil => simp [addMasked]
    | cons b m =>
      have hb := hm b (by simp)
      subst hb
      simp only [addMasked]
      rw [ih m (fun b hb => hm b (by simp [hb]))]

/-- C109, lines outside the grid.  As soon as one of two or more lines of a requested element rounds to a value
that is not on the grid, no figure is drawn and ValueError is raised, whatever the other arguments. -/
theorem C109_line_outside (env : Env K) (g : Int → K) (a : LinesArgs K) (rows : List (Row K))
    (hl : a.load env = .ok (arraysOf rows)) (hlo : OffHalf a.lo) (e : String) (he : e ∈ a.elements.iter)
    (h2 : 2 ≤ (rows.filter (fun r => decide (r.elem = e))).length)
    (hout : ∃ r ∈ rows, r.elem = e ∧ milli r.wl ∉ arcGrid a.lo a.hi) :
    plotCalibrationLines env g a = .error .valueError := by
  obtain ⟨r, hr, hre, ho⟩ := hout
  unfold plotCalibrationLines
  rw [hl]
  dsimp only
  rw [impulseLoop_stuck _ ((arcGrid_sorted _ _ hlo).imp (fun h => ne_of_lt h)) rows e h2 r hr hre ho _ he]

/-- C109, the only line outside the grid.  When the one loaded line rounds to a value that is not on the grid, the
spectrum of the figure is zero everywhere; the figure is drawn as soon as the line is bright enough and the grid
is not empty. -/
theorem C109_only_line_outside (env : Env K) (g : Int → K) (a : LinesArgs K) (r : Row K)
    (hl : a.load env = .ok (arraysOf [r])) (hout : milli r.wl ∉ arcGrid a.lo a.hi) :
    (∀ fig, plotCalibrationLines env g a = .ok fig → ∀ x ∈ fig.arc, x = 0) ∧
    (filterIntensity a.elements.iter [r] a.minIntensity = .ok [true] → arcGrid a.lo a.hi ≠ [] →
      ∃ fig, plotCalibrationLines env g a = .ok fig) := by
  have hloop : ∀ (es : List String) (i : List K),
      impulseLoop (arcGrid a.lo a.hi) (arraysOf [r]) es i = .ok i := by
    intro es
    induction es with
    | nil => intro i; rfl
    | cons e es ih =>
      intro i
      unfold impulseLoop
      dsimp only
      by_cases hee : r.elem = e
      · have h1 : boolMask (arraysOf [r]).wls ((arraysOf [r]).elems.map (fun x => decide (x = e))) = [r.wl] := by
          simp [arraysOf, boolMask, hee]
        have h2 : boolMask (arraysOf [r]).intens ((arraysOf [r]).elems.map (fun x => decide (x = e))) =
            [r.inten] := by
          simp [arraysOf, boolMask, hee]
        rw [h1, h2]
        have hf : ∀ b ∈ (arcGrid a.lo a.hi).map (fun w => decide (w ∈ [r.wl].map milli)), b = false := by
          intro b hb
          obtain ⟨w, hw, rfl⟩ := List.mem_map.1 hb
          simp only [List.map_cons, List.map_nil, List.mem_singleton, decide_eq_false_iff_not]
          rintro rfl
          exact hout hw
        have hm : ∀ m : List Bool, (∀ b ∈ m, b = false) → maskedAdd i m [r.inten] = .ok i := by
          intro m hm
          unfold maskedAdd
          split
          · rw [addMasked_none _ _ hm]
          · dsimp only
            rw [addMasked_none _ _ hm]
        rw [hm _ hf]
        exact ih i
      · have h1 : boolMask (arraysOf [r]).wls ((arraysOf [r]).elems.map (fun x => decide (x = e))) = [] := by
          simp [arraysOf, boolMask, hee]
        have h2 : boolMask (arraysOf [r]).intens ((arraysOf [r]).elems.map (fun x => decide (x = e))) = [] := by
          simp [arraysOf, boolMask, hee]
        rw [h1, h2]
        have hf : ∀ b ∈ (arcGrid a.lo a.hi).map (fun w => decide (w ∈ ([] : List K).map milli)), b = false := by
          intro b hb
          obtain ⟨w, hw, rfl⟩ := List.mem_map.1 hb
          simp
        have hm : ∀ m : List Bool, (∀ b ∈ m, b = false) → maskedAdd i m ([] : List K) = .ok i := by
          intro m hm
          unfold maskedAdd
          have hc : m.count true = 0 := List.count_eq_zero.2 (fun h => by have := hm _ h; cases this)
          rw [if_pos (by rw [hc]; rfl), addMasked_none _ _ hm]
        rw [hm _ hf]
        exact ih i
  constructor
  · intro fig hfig x hx
    obtain ⟨i, imask, dmask, hi, _, _, rfl⟩ := plotLines_ok env g a _ hl fig hfig
    rw [hloop] at hi
    cases hi
    dsimp only [convolveSame] at hx
    obtain ⟨n, _, rfl⟩ := List.mem_map.1 hx
    apply List.sum_eq_zero
    intro y hy
    obtain ⟨k, _, rfl⟩ := List.mem_map.1 hy
    have : (List.map (fun _ : Int => (0 : K)) (arcGrid a.lo a.hi)).getD k 0 = 0 := by
      rw [List.getD_eq_getElem?_getD, List.getElem?_map]
      cases (arcGrid a.lo a.hi)[k]? <;> rfl
    rw [this, zero_mul]
  · intro hf hne
    unfold plotCalibrationLines
    rw [hl]
    dsimp only
    rw [hloop]
    dsimp only
    rw [show (arraysOf [r]).rows = [r] from rfl, hf]
    dsimp only
    rw [show ((arraysOf [r]).mask [true]).wls = [r.wl] from rfl, (C03_degenerate_partial a.minDistance).2 r.wl]
    dsimp only
    rw [if_neg hne]
    exact ⟨_, rfl⟩

/-- Wavelengths from 1 to 1.01 in air, the conversion moving lines up by 0.005. -/
def Toy.airArgs : LinesArgs ℚ :=
  { Toy.arcArgs ["He"] none 0 with vacuum := false, airToVac := fun x => x, vacToAir := fun x => x + 5 / 1000 }

/-- A case for `C109_line_outside`: the second of the two lines leaves the grid. -/
example : Toy.airArgs.load (Toy.arcEnv [⟨"He", 1002 / 1000, 10⟩, ⟨"He", 1008 / 1000, 20⟩]) =
      .ok (arraysOf [⟨"He", 1007 / 1000, 10⟩, ⟨"He", 1013 / 1000, 20⟩]) ∧
    milli (1013 / 1000 : ℚ) ∉ arcGrid Toy.airArgs.lo Toy.airArgs.hi ∧
    plotCalibrationLines (Toy.arcEnv [⟨"He", 1002 / 1000, 10⟩, ⟨"He", 1008 / 1000, 20⟩]) Toy.tri Toy.airArgs =
      .error .valueError := by
  refine ⟨by decide +kernel, by decide +kernel, by decide +kernel⟩

/-- A case for `C109_only_line_outside`: the line is marked outside the axis and the spectrum is zero. -/
example : Toy.airArgs.load (Toy.arcEnv [⟨"He", 1008 / 1000, 20⟩]) = .ok (arraysOf [⟨"He", 1013 / 1000, 20⟩]) ∧
    plotCalibrationLines (Toy.arcEnv [⟨"He", 1008 / 1000, 20⟩]) Toy.tri Toy.airArgs =
      .ok ⟨[1000, 1001, 1002, 1003, 1004, 1005, 1006, 1007, 1008, 1009, 1010],
        [0, 0, 0, 0, 0, 0, 0, 0, 0, 0, 0], [("He", [(1013 / 1000, 20)])], [.file "rascal_arc.png".toList]⟩ := by
  refine ⟨by decide +kernel, by decide +kernel⟩

end Rascal
