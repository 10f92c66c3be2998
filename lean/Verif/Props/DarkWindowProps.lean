import Verif.Props.RefineProps

/-!
C15, windows without light: when the samples around a peak are missing or at most zero and their largest
value is zero, dividing by it leaves no number to fit, and the peak is dropped without calling the fit.
-/

set_option linter.unusedSectionVars false

namespace Rascal

variable {K : Type _} [Field K] [LinearOrder K] [IsStrictOrderedRing K] [FloorRing K]

/-- A sample without light: nan, or a number which is at most zero. -/
def Spec.Dark (v : PyFloat K) : Prop := v = .nan ∨ ∃ a : K, a ≤ 0 ∧ v = .fin a

theorem fmax_dark {v w : PyFloat K} (hv : Spec.Dark v) (hw : Spec.Dark w) :
    Spec.Dark (PyFloat.fmax v w) := by
  rcases hv with rfl | ⟨a, ha, rfl⟩
  · exact hw
  · rcases hw with rfl | ⟨b, hb, rfl⟩
    · exact .inr ⟨a, ha, rfl⟩
    · simp only [PyFloat.fmax]
      split_ifs
      · exact .inr ⟨b, hb, rfl⟩
      · exact .inr ⟨a, ha, rfl⟩

theorem fmax_zero_left {w : PyFloat K} (hw : Spec.Dark w) : PyFloat.fmax (.fin 0) w = .fin 0 := by
  rcases hw with rfl | ⟨b, hb, rfl⟩
  · rfl
  · simp only [PyFloat.fmax, PyFloat.lt, decide_eq_true_eq]
    rw [if_neg (not_lt.2 hb)]

theorem fmax_zero_right {v : PyFloat K} (hv : Spec.Dark v) : PyFloat.fmax v (.fin 0) = .fin 0 := by
  rcases hv with rfl | ⟨a, ha, rfl⟩
  · rfl
  · simp only [PyFloat.fmax, PyFloat.lt, decide_eq_true_eq]
    split_ifs with h
    · rfl
    · rw [le_antisymm ha (not_lt.1 h)]

theorem foldl_fmax_zero (y : List (PyFloat K)) (h : ∀ v ∈ y, Spec.Dark v) :
    y.foldl PyFloat.fmax (.fin 0) = .fin 0 := by
  induction y with
  | nil => rfl
  | cons v y ih =>
    rw [List.foldl_cons, fmax_zero_left (h v (by simp))]
    exact ih fun u hu => h u (by simp [hu])

theorem foldl_fmax_dark (y : List (PyFloat K)) (h : ∀ v ∈ y, Spec.Dark v) (acc : PyFloat K)
    (ha : Spec.Dark acc) (h0 : (.fin 0 : PyFloat K) ∈ y) : y.foldl PyFloat.fmax acc = .fin 0 := by
  induction y generalizing acc with
  | nil => simp at h0
  | cons v y ih =>
    rw [List.foldl_cons]
    have hy : ∀ u ∈ y, Spec.Dark u := fun u hu => h u (by simp [hu])
    rcases List.mem_cons.1 h0 with rfl | h0
    · rw [fmax_zero_right ha]
      exact foldl_fmax_zero y hy
    · exact ih hy _ (fmax_dark ha (h v (by simp))) h0

theorem foldl_fmax_nan (y : List (PyFloat K)) (h : ∀ v ∈ y, v = .nan) :
    y.foldl PyFloat.fmax .nan = .nan := by
  induction y with
  | nil => rfl
  | cons v y ih =>
    rw [List.foldl_cons, h v (by simp)]
    exact ih fun u hu => h u (by simp [hu])

/-- The normalised window holds no number. -/
theorem normaliseWindow_dark (y : List (PyFloat K)) (h : ∀ v ∈ y, Spec.Dark v)
    (h0 : (.fin 0 : PyFloat K) ∈ y ∨ ∀ v ∈ y, v = .nan) :
    ∀ v ∈ normaliseWindow y, v = .nan ∨ v = .negInf := by
  intro v hv
  obtain ⟨u, hu, rfl⟩ := List.mem_map.1 hv
  rcases h0 with h0 | h0
  · rw [show nanMax y = .fin 0 from foldl_fmax_dark y h _ (.inl rfl) h0]
    rcases h u hu with rfl | ⟨a, ha, rfl⟩
    · exact .inl rfl
    · simp only [PyFloat.div, if_true, not_lt.2 ha, if_false]
      split_ifs <;> simp
  · rw [show nanMax y = .nan from foldl_fmax_nan y h0, h0 u hu]
    exact .inl rfl

/-- A peak whose window holds no light is dropped: whatever the fit would say or raise, the loop goes on
with the remaining peaks. -/
theorem C15_dark (fit : List (PyFloat K) → FitOut K) (ww : Int) (sp : List (PyFloat K)) (p : K)
    (rest : List K) (hne : peakWindow sp ww p ≠ []) (h : ∀ v ∈ peakWindow sp ww p, Spec.Dark v)
    (h0 : (.fin 0 : PyFloat K) ∈ peakWindow sp ww p ∨ ∀ v ∈ peakWindow sp ww p, v = .nan) :
    refineLoop fit ww sp (p :: rest) = refineLoop fit ww (divideWindow sp ww p) rest ∧
      refinePeaks fit true sp [p] ww = .ok [] := by
  have hc : contribution fit sp ww p = .ok none := by
    unfold contribution
    rw [if_neg hne, if_pos]
    rw [List.all_eq_true]
    intro v hv
    rcases normaliseWindow_dark _ h h0 v hv with rfl | rfl <;> rfl
  have hl : ∀ r, refineLoop fit ww sp (p :: r) = refineLoop fit ww (divideWindow sp ww p) r := by
    intro r
    rw [refineLoop_cons, hc]
  refine ⟨hl rest, ?_⟩
  have h1 : refineLoop fit ww sp [p] = .ok [] := by rw [hl, refineLoop]
  unfold refinePeaks
  rw [h1]
  simp [refineSelect, boolMask]

/-- A case for `C15_dark`: a background-subtracted spectrum, with a dead pixel, around pixel 2, and light
around pixel 8; the fit raises whenever it is called on a window without numbers. -/
example := C15_dark (K := ℚ) (fun _ => .raises .valueError) 2
  [.fin (-1), .fin 0, .nan, .fin (-3), .fin 0, .fin 1, .fin 0, .fin 3, .fin 9, .fin 1, .fin 0] 2 [8]
  (by decide +kernel) (by
    intro v hv
    rw [show peakWindow (K := ℚ) _ _ _ = [.fin (-1), .fin 0, .nan, .fin (-3)] by decide +kernel] at hv
    simp only [List.mem_cons, List.not_mem_nil, or_false] at hv
    rcases hv with rfl | rfl | rfl | rfl
    · exact .inr ⟨-1, by norm_num, rfl⟩
    · exact .inr ⟨0, le_refl _, rfl⟩
    · exact .inl rfl
    · exact .inr ⟨-3, by norm_num, rfl⟩)
  (.inl (by decide +kernel))

end Rascal
