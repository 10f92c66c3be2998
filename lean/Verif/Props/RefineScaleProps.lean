import Verif.Props.RefineProps

/-!
Property theorems C141 to C143: what `refine_peaks` depends on.
-/

set_option linter.unusedSectionVars false

namespace Rascal

variable {K : Type _} [Field K] [LinearOrder K] [IsStrictOrderedRing K] [FloorRing K]

/-! ### C141 -/

/-- The counts of a detector with another gain. -/
def Spec.gain (c : K) : PyFloat K → PyFloat K
  | .fin v => .fin (c * v)
  | v => v

open Spec

theorem lt_gain {c : K} (hc : 0 < c) (a b : PyFloat K) :
    PyFloat.lt (gain c a) (gain c b) = PyFloat.lt a b := by
  cases a <;> cases b <;> simp [gain, PyFloat.lt, hc]

theorem fmax_gain {c : K} (hc : 0 < c) (a b : PyFloat K) :
    PyFloat.fmax (gain c a) (gain c b) = gain c (PyFloat.fmax a b) := by
  have := lt_gain hc a b
  cases a <;> cases b <;> first
    | rfl
    | (simp only [PyFloat.fmax, gain] at this ⊢
       rw [this]
       split <;> rfl)
    | (simp only [PyFloat.fmax, gain]
       split <;> rfl)

theorem foldl_fmax_gain {c : K} (hc : 0 < c) (y : List (PyFloat K)) (a : PyFloat K) :
    (y.map (gain c)).foldl PyFloat.fmax (gain c a) = gain c (y.foldl PyFloat.fmax a) := by
  induction y generalizing a with
  | nil => rfl
  | cons b y ih => rw [List.map_cons, List.foldl_cons, List.foldl_cons, fmax_gain hc, ih]

theorem nanMax_gain {c : K} (hc : 0 < c) (y : List (PyFloat K)) :
    nanMax (y.map (gain c)) = gain c (nanMax y) := foldl_fmax_gain hc y .nan

theorem div_gain {c : K} (hc : 0 < c) (a b : PyFloat K) :
    (gain c a).div (gain c b) = a.div b := by
  have hc' : c ≠ 0 := hc.ne'
  cases a <;> cases b <;> simp [gain, PyFloat.div, hc, hc', mul_div_mul_left]

theorem normaliseWindow_gain {c : K} (hc : 0 < c) (y : List (PyFloat K)) :
    normaliseWindow (y.map (gain c)) = normaliseWindow y := by
  unfold normaliseWindow
  rw [nanMax_gain hc, List.map_map]
  apply List.map_congr_left
  intro v _
  exact div_gain hc v _

theorem peakWindow_map (f : PyFloat K → PyFloat K) (sp : List (PyFloat K)) (ww : Int) (p : K) :
    peakWindow (sp.map f) ww p = (peakWindow sp ww p).map f := by
  unfold peakWindow
  rw [List.length_map, List.map_drop, List.map_take]

theorem normaliseWindow_nil (y : List (PyFloat K)) : normaliseWindow y = [] ↔ y = [] := by
  unfold normaliseWindow
  exact List.map_eq_nil_iff

/-- For separated peaks, the loop only depends on the normalised windows. -/
theorem refineLoop_congr (fit : List (PyFloat K) → FitOut K) (ww : Nat) (hw : 0 < ww) (sp sp2 : List (PyFloat K))
    (peaks : List K) (hl : sp2.length = sp.length) (hr : ∀ p ∈ peaks, 0 ≤ p ∧ p < (sp.length : K))
    (hsep : peaks.Pairwise (fun p q => 2 * (ww : K) + 1 ≤ |p - q|))
    (h : ∀ p ∈ peaks, normaliseWindow (peakWindow sp2 ww p) = normaliseWindow (peakWindow sp ww p)) :
    refineLoop fit ww sp2 peaks = refineLoop fit ww sp peaks := by
  induction peaks generalizing sp sp2 with
  | nil => rfl
  | cons p rest ih =>
    have hp := hr p (by simp)
    have hn := peakWindow_ne_nil sp ww p hw hp.1 hp.2
    have hn2 := peakWindow_ne_nil sp2 ww p hw hp.1 (by rw [hl]; exact hp.2)
    have e1 := divideWindow_length sp ww p hn
    have e2 := divideWindow_length sp2 ww p hn2
    have hrest := ih (divideWindow sp ww p) (divideWindow sp2 ww p) (by rw [e1, e2, hl])
      (by rw [e1]; exact fun q hq => hr q (by simp [hq])) (List.pairwise_cons.1 hsep).2 (by
        intro q hq
        have hq' := hr q (by simp [hq])
        have hs := (List.pairwise_cons.1 hsep).1 q hq
        rw [abs_sub_comm] at hs
        rw [peakWindow_divide sp ww p q hw hp.1 hp.2 hq'.1 hq'.2 hs,
          peakWindow_divide sp2 ww p q hw hp.1 (by rw [hl]; exact hp.2) hq'.1 (by rw [hl]; exact hq'.2) hs]
        exact h q (by simp [hq]))
    rw [refineLoop.eq_2, refineLoop.eq_2, if_neg hn, if_neg hn2]
    dsimp only
    rw [hrest, h p (by simp), hl]

/-- The claim: the gain of the detector does not influence the refined positions. -/
def C141_Statement : Prop :=
  ∀ (fit : List (PyFloat ℚ) → FitOut ℚ) (sp : List (PyFloat ℚ)) (peaks : List ℚ) (ww : Nat) (c : ℚ),
    0 < ww → 0 < c → (∀ p ∈ peaks, 0 ≤ p ∧ p < (sp.length : ℚ)) →
    refinePeaks fit true (sp.map (gain c)) peaks ww = refinePeaks fit true sp peaks ww

/-- C141 is false: the window of the first peak is divided by its maximum in the array the second
window is cut from, so an overlapping second window mixes relative values with counts. -/
theorem C141_refuted : ¬ C141_Statement := by
  intro h
  have := h argmaxFit ([1, 3, 1, 0, 2, 1, 0, 0].map (fun v : ℚ => PyFloat.fin v)) [1, 4] 3 (1 / 10)
    (by decide) (by norm_num) (by decide +kernel)
  revert this
  decide +kernel

/-- C141, what holds: if the peaks are inside the spectrum and at least `2 ww + 1` pixels apart, the
refined positions do not depend on the gain.  What is missing: peaks whose windows overlap. -/
theorem C141_gain_partial (fit : List (PyFloat K) → FitOut K) (sp : List (PyFloat K)) (peaks : List K)
    (ww : Nat) (c : K) (hw : 0 < ww) (hc : 0 < c) (hr : ∀ p ∈ peaks, 0 ≤ p ∧ p < (sp.length : K))
    (hsep : peaks.Pairwise (fun p q => 2 * (ww : K) + 1 ≤ |p - q|)) :
    refinePeaks fit true (sp.map (gain c)) peaks ww = refinePeaks fit true sp peaks ww := by
  unfold refinePeaks
  dsimp only
  rw [refineLoop_congr fit ww hw sp (sp.map (gain c)) peaks (List.length_map _) hr hsep (by
    intro p _
    rw [peakWindow_map, normaliseWindow_gain hc]), List.length_map]

/-- A case for `C141_gain_partial`. -/
example := C141_gain_partial argmaxFit ([1, 3, 1, 0, 2, 1, 0, 0].map (fun v : ℚ => PyFloat.fin v)) [1, 5] 1
  (1 / 10) (by decide) (by norm_num) (by decide +kernel) (by decide +kernel)

example : refinePeaks argmaxFit true ([1, 3, 1, 0, 2, 1, 0, 0].map (fun v : ℚ => PyFloat.fin v)) [1, 5] 1 =
    .ok [.fin 1, .fin 4] := by decide +kernel

/-- For one peak the gain has no influence, whatever the window. -/
theorem C141_single (fit : List (PyFloat K) → FitOut K) (sp : List (PyFloat K)) (p : K) (ww : Int) (c : K)
    (hc : 0 < c) : refinePeaks fit true (sp.map (gain c)) [p] ww = refinePeaks fit true sp [p] ww := by
  unfold refinePeaks
  dsimp only
  rw [refineLoop.eq_2, refineLoop.eq_2]
  simp only [List.length_map, normaliseWindow_gain hc, peakWindow_map, refineLoop.eq_1, List.map_eq_nil_iff]

/-- A case for `C141_single`: a peak given outside the spectrum. -/
example := C141_single argmaxFit ([1, 3, 1, 0, 2].map (fun v : ℚ => PyFloat.fin v)) 6 3 7 (by norm_num)

example : refinePeaks argmaxFit true ([1, 3, 1, 0, 2].map (fun v : ℚ => PyFloat.fin v)) [6] 3 =
    .ok [.fin 4] := by decide +kernel

/-! ### C142 -/

theorem peakWindow_congr (sp sp2 : List (PyFloat K)) (ww : Nat) (p : K) (hl : sp2.length = sp.length)
    (hp : 0 ≤ p) (hp1 : p < (sp.length : K))
    (h : ∀ j : Nat, ⌊p⌋ - ww ≤ (j : Int) → (j : Int) < ⌊p⌋ + ww → sp2[j]? = sp[j]?) :
    peakWindow sp2 ww p = peakWindow sp ww p := by
  obtain ⟨b1, b2, b3, b4⟩ := window_bounds sp.length ww p hp hp1
  apply List.ext_getElem?
  intro i
  unfold peakWindow
  rw [hl, List.getElem?_drop, List.getElem?_drop, List.getElem?_take, List.getElem?_take]
  split_ifs with hi
  · rw [b1, b2] at hi
    rw [b1]
    exact h _ (by omega) (by omega)
  · rfl

/-- Reading the working copy inside the window just divided. -/
theorem divideWindow_inside (sp : List (PyFloat K)) (ww : Nat) (q : K) (hq : 0 ≤ q) (hq1 : q < (sp.length : K))
    (i : Nat) (h : windowStart sp.length ww q ≤ i) (h' : i < windowStop sp.length ww q) :
    (divideWindow sp ww q)[i]? =
      (normaliseWindow (peakWindow sp ww q))[i - windowStart sp.length ww q]? := by
  obtain ⟨h1, h2, h3, h4⟩ := window_bounds sp.length ww q hq hq1
  have hlen : (normaliseWindow (peakWindow sp ww q)).length =
      windowStop sp.length ww q - windowStart sp.length ww q := by
    unfold normaliseWindow peakWindow
    rw [List.length_map, List.length_drop, List.length_take]
    omega
  have ht : (sp.take (windowStart sp.length ww q)).length = windowStart sp.length ww q := by
    rw [List.length_take]; omega
  unfold divideWindow
  rw [List.getElem?_append_left (by rw [List.length_append, hlen, ht]; omega),
    List.getElem?_append_right (by rw [ht]; exact h), ht]

theorem refineLoop_local (fit : List (PyFloat K) → FitOut K) (ww : Nat) (hw : 0 < ww) (sp sp2 : List (PyFloat K))
    (peaks : List K) (hl : sp2.length = sp.length) (hr : ∀ p ∈ peaks, 0 ≤ p ∧ p < (sp.length : K))
    (h : ∀ p ∈ peaks, ∀ j : Nat, ⌊p⌋ - ww ≤ (j : Int) → (j : Int) < ⌊p⌋ + ww → sp2[j]? = sp[j]?) :
    refineLoop fit ww sp2 peaks = refineLoop fit ww sp peaks := by
  induction peaks generalizing sp sp2 with
  | nil => rfl
  | cons p rest ih =>
    have hp := hr p (by simp)
    have hn := peakWindow_ne_nil sp ww p hw hp.1 hp.2
    have hn2 := peakWindow_ne_nil sp2 ww p hw hp.1 (by rw [hl]; exact hp.2)
    have e1 := divideWindow_length sp ww p hn
    have e2 := divideWindow_length sp2 ww p hn2
    have hwin := peakWindow_congr sp sp2 ww p hl hp.1 hp.2 (h p (by simp))
    have hrest := ih (divideWindow sp ww p) (divideWindow sp2 ww p) (by rw [e1, e2, hl])
      (by rw [e1]; exact fun q hq => hr q (by simp [hq])) (by
        intro q hq j j1 j2
        by_cases hj : windowStart sp.length ww p ≤ j ∧ j < windowStop sp.length ww p
        · rw [divideWindow_inside sp ww p hp.1 hp.2 j hj.1 hj.2,
            divideWindow_inside sp2 ww p hp.1 (by rw [hl]; exact hp.2) j (by rw [hl]; exact hj.1)
              (by rw [hl]; exact hj.2), hwin, hl]
        · rw [divideWindow_getElem? sp ww p hp.1 hp.2 j (by omega),
            divideWindow_getElem? sp2 ww p hp.1 (by rw [hl]; exact hp.2) j (by rw [hl]; omega)]
          exact h q (by simp [hq]) j j1 j2)
    rw [refineLoop.eq_2, refineLoop.eq_2, if_neg hn, if_neg hn2]
    dsimp only
    rw [hrest, hwin, hl]

/-- C142: two spectra of the same length that agree within the window width of every given peak give the
same result, whatever the rest of the spectrum is, nan and infinities included. -/
theorem C142_local (fit : List (PyFloat K) → FitOut K) (sp sp2 : List (PyFloat K)) (peaks : List K)
    (ww : Nat) (hw : 0 < ww) (hl : sp2.length = sp.length) (hr : ∀ p ∈ peaks, 0 ≤ p ∧ p < (sp.length : K))
    (h : ∀ p ∈ peaks, ∀ j : Nat, ⌊p⌋ - ww ≤ (j : Int) → (j : Int) < ⌊p⌋ + ww → sp2[j]? = sp[j]?) :
    refinePeaks fit true sp2 peaks ww = refinePeaks fit true sp peaks ww := by
  unfold refinePeaks
  dsimp only
  rw [refineLoop_local fit ww hw sp sp2 peaks hl hr h, hl]

/-- A case for `C142_local`: a nan outside the windows. -/
example := C142_local argmaxFit ([1, 3, 1, 0, 2, 1, 0, 0].map (fun v : ℚ => PyFloat.fin v))
  [.fin 1, .fin 3, .fin 1, .fin 0, .fin 2, .fin 1, .fin 0, .nan] [1, 4] 2 (by decide) rfl (by decide +kernel) (by
    intro p hp j j1 j2
    have hj : j < 6 := by
      simp only [List.mem_cons, List.not_mem_nil, or_false] at hp
      rcases hp with rfl | rfl
      · have : ⌊(1 : ℚ)⌋ = 1 := by decide +kernel
        omega
      · have : ⌊(4 : ℚ)⌋ = 4 := by decide +kernel
        omega
    rcases j with _ | _ | _ | _ | _ | _ | j
    iterate 6 rfl
    omega)

/-! ### C143 -/

/-- A position in a spectrum with `n` more samples in front. -/
def Spec.moved (n : Nat) : PyFloat K → PyFloat K
  | .fin v => .fin (v + (n : K))
  | v => v

theorem window_moved (len n ww : Nat) (p : K) (hp : (ww : K) < p) (hp1 : p < (len : K)) :
    windowStart (n + len) ww (p + (n : K)) = n + windowStart len ww p ∧
    windowStop (n + len) ww (p + (n : K)) = n + windowStop len ww p ∧
    windowStart len ww p ≤ len ∧ windowStop len ww p ≤ len := by
  have h0 : (0 : K) ≤ (ww : K) := Nat.cast_nonneg ww
  have hn : (0 : K) ≤ (n : K) := Nat.cast_nonneg n
  have hf : (ww : Int) ≤ ⌊p⌋ := by
    rw [Int.le_floor]
    push_cast
    exact hp.le
  obtain ⟨a1, a2, a3, a4⟩ := window_bounds len ww p (h0.trans hp.le) hp1
  obtain ⟨b1, b2, b3, b4⟩ := window_bounds (n + len) ww (p + (n : K)) (by linarith) (by push_cast; linarith)
  have e : ⌊p + (n : K)⌋ = ⌊p⌋ + n := Int.floor_add_natCast p n
  rw [a1, a2, b1, b2, e]
  refine ⟨?_, ?_, ?_, ?_⟩ <;> push_cast <;> omega

theorem peakWindow_moved (pre sp : List (PyFloat K)) (ww : Nat) (p : K) (hp : (ww : K) < p)
    (hp1 : p < (sp.length : K)) :
    peakWindow (pre ++ sp) ww (p + (pre.length : K)) = peakWindow sp ww p ∧
    divideWindow (pre ++ sp) ww (p + (pre.length : K)) = pre ++ divideWindow sp ww p := by
  obtain ⟨h1, h2, _, _⟩ := window_moved sp.length pre.length ww p hp hp1
  have hw : peakWindow (pre ++ sp) ww (p + (pre.length : K)) = peakWindow sp ww p := by
    unfold peakWindow
    rw [List.length_append, h1, h2, List.take_length_add_append, List.drop_length_add_append]
  refine ⟨hw, ?_⟩
  unfold divideWindow
  rw [hw, List.length_append, h1, h2, List.take_length_add_append, List.drop_length_add_append,
    List.append_assoc, List.append_assoc, List.append_assoc]

theorem contribution_moved (fit : List (PyFloat K) → FitOut K) (pre sp : List (PyFloat K)) (ww : Nat) (p : K)
    (hp : (ww : K) < p) (hp1 : p < (sp.length : K))
    (hc : ∀ y h c, fit y = .ok h c → ∃ v, c = .fin v ∧ 0 ≤ v ∧ v ≤ (sp.length : K)) :
    contribution fit (pre ++ sp) ww (p + (pre.length : K)) =
      (contribution fit sp ww p).map (Option.map (moved pre.length)) := by
  obtain ⟨h1, _⟩ := peakWindow_moved pre sp ww p hp hp1
  unfold contribution
  rw [h1, List.length_append]
  split
  · rfl
  split
  · rfl
  cases hf : fit (normaliseWindow (peakWindow sp ww p)) with
  | runtimeError => rfl
  | raises e => rfl
  | ok h c =>
    obtain ⟨v, rfl, v0, v1⟩ := hc _ _ _ hf
    dsimp only
    split
    · rfl
    have e1 : (PyFloat.lt (.fin ((pre.length + sp.length : Nat) : K)) (.fin v) || PyFloat.lt (.fin v) (.fin 0)) =
        false := by
      have : (0 : K) ≤ (pre.length : K) := Nat.cast_nonneg _
      simp only [PyFloat.lt, Bool.or_eq_false_iff, decide_eq_false_iff_not, not_lt]
      refine ⟨?_, v0⟩
      push_cast
      linarith
    have e2 : (PyFloat.lt (.fin ((sp.length : Nat) : K)) (.fin v) || PyFloat.lt (.fin v) (.fin 0)) = false := by
      simp only [PyFloat.lt, Bool.or_eq_false_iff, decide_eq_false_iff_not, not_lt]
      exact ⟨v1, v0⟩
    rw [e1, e2]
    simp only [Bool.false_eq_true, if_false, Except.map, Option.map, moved]
    congr 3
    ring

theorem refineLoop_moved (fit : List (PyFloat K) → FitOut K) (pre sp : List (PyFloat K)) (ww : Nat) (hw : 0 < ww)
    (peaks : List K) (hr : ∀ p ∈ peaks, (ww : K) < p ∧ p < (sp.length : K))
    (hc : ∀ y h c, fit y = .ok h c → ∃ v, c = .fin v ∧ 0 ≤ v ∧ v ≤ (sp.length : K)) :
    refineLoop fit ww (pre ++ sp) (peaks.map (fun p => p + (pre.length : K))) =
      (refineLoop fit ww sp peaks).map (List.map (moved pre.length)) := by
  induction peaks generalizing sp with
  | nil => rfl
  | cons p rest ih =>
    have hp := hr p (by simp)
    have h0 : (0 : K) ≤ (ww : K) := Nat.cast_nonneg ww
    have hl := divideWindow_length sp ww p (peakWindow_ne_nil sp ww p hw (h0.trans hp.1.le) hp.2)
    rw [List.map_cons, refineLoop_cons, refineLoop_cons, contribution_moved fit pre sp ww p hp.1 hp.2 hc,
      (peakWindow_moved pre sp ww p hp.1 hp.2).2, ih (divideWindow sp ww p)
        (by rw [hl]; exact fun q hq => hr q (by simp [hq])) (by rw [hl]; exact hc)]
    cases contribution fit sp ww p with
    | error e => rfl
    | ok o =>
      cases o with
      | none => rfl
      | some v =>
        dsimp only [Except.map, Option.map]
        cases refineLoop fit ww (divideWindow sp ww p) rest with
        | error e => rfl
        | ok r => rfl

theorem isClose_far {x y : K} (t : K) (ht : |y| ≤ t) (h : 1 / 100000000 + t / 100000 < |x - y|) :
    isClose (.fin x) (.fin y) = false := by
  simp only [isClose, decide_eq_false_iff_not, not_le]
  have : 1 / 100000 * |y| ≤ t / 100000 := by
    rw [div_mul_eq_mul_div, one_mul]
    exact div_le_div_of_nonneg_right ht (by norm_num)
  linarith

theorem refineSelect_moved (len n : Nat) (raw : List (PyFloat K))
    (hraw : ∀ v ∈ raw, ∃ x, v = .fin x ∧ 0 < x)
    (hp : raw.Pairwise (fun a b => ∃ x y, a = .fin x ∧ b = .fin y ∧
      1 / 100000000 + (|y| + (n : K)) / 100000 < |x - y|)) :
    refineSelect (n + len) (raw.map (moved n)) = (refineSelect len raw).map (moved n) := by
  have hn : (0 : K) ≤ (n : K) := Nat.cast_nonneg n
  unfold refineSelect
  dsimp only
  rw [boolMask_map]
  congr 2
  have e1 : (raw.map (moved n)).map (fun v => PyFloat.lt (.fin 0) v && PyFloat.lt v (.fin ((n + len : Nat) : K))) =
      raw.map (fun v => PyFloat.lt (.fin 0) v && PyFloat.lt v (.fin (len : K))) := by
    rw [List.map_map]
    apply List.map_congr_left
    intro v hv
    obtain ⟨x, rfl, hx⟩ := hraw v hv
    simp only [Function.comp_apply, moved, PyFloat.lt]
    congr 1
    · rw [decide_eq_decide]
      constructor
      · exact fun _ => hx
      · intro _
        linarith
    · rw [decide_eq_decide]
      push_cast
      constructor <;> intro h <;> linarith
  have e2 : List.zipWith isClose (raw.map (moved n)) (raw.map (moved n)).tail = List.zipWith isClose raw raw.tail := by
    rw [← List.map_tail]
    clear e1 hraw
    induction raw with
    | nil => rfl
    | cons a r ih =>
      cases r with
      | nil => rfl
      | cons b r =>
        have h2 := ih (List.pairwise_cons.1 hp).2
        obtain ⟨x, y, rfl, rfl, h⟩ := (List.pairwise_cons.1 hp).1 b (by simp)
        simp only [List.tail_cons, List.map_cons, List.zipWith_cons_cons] at h2 ⊢
        rw [h2]
        congr 1
        simp only [moved]
        rw [isClose_far (|y| + (n : K)) ((abs_add_le _ _).trans (by rw [abs_of_nonneg hn])) (by
            rw [add_sub_add_right_eq_sub]; exact h),
          isClose_far (|y| + (n : K)) (by linarith) h]
  rw [e1, e2]

/-- The claim: cutting samples off the front of a spectrum moves the refined positions by as many pixels. -/
def C143_Statement : Prop :=
  ∀ (fit : List (PyFloat ℚ) → FitOut ℚ) (pre sp : List (PyFloat ℚ)) (peaks : List ℚ) (ww : Nat), 0 < ww →
    (∀ p ∈ peaks, (ww : ℚ) < p ∧ p < (sp.length : ℚ)) →
    (∀ y h c, fit y = .ok h c → ∃ v, c = .fin v ∧ 0 ≤ v ∧ v ≤ (sp.length : ℚ)) →
    refinePeaks fit true (pre ++ sp) (peaks.map (fun p => p + (pre.length : ℚ))) ww =
      (refinePeaks fit true sp peaks ww).map (List.map (moved pre.length))

/-- C143 is false: two positions are taken for the same if they differ by less than 1e-5 of the pixel
number, so the number of returned peaks depends on where the spectrum begins. -/
theorem C143_refuted : ¬ C143_Statement := by
  intro h
  have := h (fun _ => .ok (.fin 1) (.fin 1)) (List.replicate 10 (.fin 0))
    ([0, 1, 8, 2, 0].map (fun v : ℚ => PyFloat.fin v)) [2, 2 + 1 / 25000] 1
    (by decide) (by decide +kernel) (by rintro y h c hc; cases hc; exact ⟨1, rfl, by decide +kernel, by decide +kernel⟩)
  revert this
  decide +kernel

/-- C143, what holds: for peaks whose windows do not reach the first sample, and fits that end inside the
spectrum, the refined positions move with the spectrum if no two of them are within 1e-5 of the
pixel number.  What is missing: positions as close as that, and windows cut off at the first sample (see
C17). -/
theorem C143_moved_partial (fit : List (PyFloat K) → FitOut K) (pre sp : List (PyFloat K)) (peaks : List K)
    (ww : Nat) (hw : 0 < ww) (hr : ∀ p ∈ peaks, (ww : K) < p ∧ p < (sp.length : K))
    (hc : ∀ y h c, fit y = .ok h c → ∃ v, c = .fin v ∧ 0 ≤ v ∧ v ≤ (sp.length : K))
    (hs : ∀ (i j : Nat) (p q x y : K), i < j → peaks[i]? = some p → peaks[j]? = some q →
      Reported fit (workingCopy sp ww (peaks.take i)) ww p x →
      Reported fit (workingCopy sp ww (peaks.take j)) ww q y →
      1 / 100000000 + (|y| + (pre.length : K)) / 100000 < |x - y|) :
    refinePeaks fit true (pre ++ sp) (peaks.map (fun p => p + (pre.length : K))) ww =
      (refinePeaks fit true sp peaks ww).map (List.map (moved pre.length)) := by
  unfold refinePeaks
  dsimp only
  rw [refineLoop_moved fit pre sp ww hw peaks hr hc, List.length_append]
  cases hr' : refineLoop fit ww sp peaks with
  | error e => rfl
  | ok raw =>
    dsimp only [Except.map]
    congr 1
    obtain ⟨cs, h1, h2, h3⟩ := refineLoop_spec fit ww sp peaks raw hr'
    have get : ∀ (k : Nat) (hk : k < cs.length) (v : PyFloat K), id cs[k] = some v →
        ∃ x, v = .fin x ∧ Reported fit (workingCopy sp ww (peaks.take k)) ww (peaks[k]'(by omega)) x := by
      intro k hk v hv
      obtain ⟨c, hc1, hc2, _⟩ := h3 k (peaks[k]'(by omega)) (List.getElem?_eq_getElem (by omega))
      rw [List.getElem?_eq_getElem hk] at hc1
      have hcv : c = some v := by
        rw [← Option.some.inj hc1]; exact hv
      subst hcv
      obtain ⟨x, rfl⟩ := contribution_isFin (fun y h c hf => (hc y h c hf).imp fun _ h => h.1) hc2
      exact ⟨x, rfl, contribution_fin hc2⟩
    apply refineSelect_moved
    · intro v hv
      rw [h1, List.mem_filterMap] at hv
      obtain ⟨o, ho, hov⟩ := hv
      obtain ⟨k, hk, rfl⟩ := List.mem_iff_getElem.1 ho
      obtain ⟨x, rfl, _, c, _, _, c0, _, rfl⟩ := get k hk v hov
      refine ⟨_, rfl, ?_⟩
      have := (hr (peaks[k]'(by omega)) (List.getElem_mem _)).1
      push_cast
      linarith
    · rw [h1, List.pairwise_filterMap, List.pairwise_iff_getElem]
      intro i j hi hj hij a ha b hb
      obtain ⟨x, rfl, hx⟩ := get i hi a ha
      obtain ⟨y, rfl, hy⟩ := get j hj b hb
      exact ⟨x, y, rfl, rfl, hs i j _ _ x y hij (List.getElem?_eq_getElem (by omega))
        (List.getElem?_eq_getElem (by omega)) hx hy⟩

/-- A case for `C143_moved_partial`: two peaks, ten more samples. -/
example := C143_moved_partial (K := ℚ) (fun _ => .ok (.fin 1) (.fin 2)) (List.replicate 10 (.fin 0))
  ([0, 1, 0, 8, 2, 0, 1, 0, 3, 9, 1, 0, 0].map (fun v : ℚ => PyFloat.fin v)) [3, 9] 2 (by decide) (by decide +kernel)
  (by rintro y h c hc; cases hc; exact ⟨2, rfl, by decide +kernel, by decide +kernel⟩) (by
    rintro i j p q x y hij hp hq ⟨_, _, h1, _, _, _, rfl⟩ ⟨_, _, h2, _, _, _, rfl⟩
    cases h1; cases h2
    rcases i with _ | _ | i <;> rcases j with _ | _ | j <;> simp at hp hq hij
    subst hp; subst hq; norm_num)

end Rascal
